import Verif.Spec.Headers
import Verif.Props.Paired
/-
What becomes of the headers of a call, in both directions (C111).
-/
namespace Soapfish

/-- What the dispatcher answers when middlewares and method produce a response with an object. -/
theorem answer_sent {W : World} {d : DispId} {m : MethodId} {tin tout : Str} {cin cout : ClsId}
    (R : Serves W d m tin tout cin cout) {r : ReqId} {s : State} {q : Req} {v : Val}
    {resp : Response} {doc : Xml} (hq : s.reqs[r]? = some q) (hp : IsPost q)
    (hret : (inner W d r q s).1 = .ok (.response resp)) (hbody : resp.soapBody = .val v)
    (hmeth : ∀ q', (inner W d r q s).2.reqs[r]? = some q' → q'.method = some m)
    (hdoc : responseXml (W.disp d).service.version (W.table (W.disp d).service) W.depth tout v
      resp.soapHeader = .ok doc) :
    ∃ answer, outcome (dispatch W d r) s = .ok answer ∧ answer.content = .bytes (W.write doc) := by
  obtain ⟨q', hq'⟩ := inner_req (W := W) (d := d) hq
  have hfin : finishResponse W (W.disp d) q'.method resp = .ok { resp with
      httpHeaders := Dict.set resp.httpHeaders py"Content-Type" (W.disp d).service.version.contentType,
      content := .bytes (W.write doc) } := by
    unfold finishResponse
    simp only [hbody, hmeth q' hq', answerTag, R.output, Except_ok_bind, hdoc]
  have ho : catchSoapError (inner W d r q s).1 = .ok resp := by rw [hret]; rfl
  exact ⟨_, by rw [outcome, dispatch_inner hq hp R.requestHook, afterChain_eq R.responseHook ho hq' hfin], rfl⟩

/-- **C111 (server alone).** The server answers the document of a parameter and a header that survive with the document of
what the method computes from a header and a parameter with the same fields. -/
theorem C111_served (W : World) (d : DispId) (m : MethodId) (tin tout : Str) (cin cout : ClsId)
    (R : Serves W d m tin tout cin cout) (body header : Val → Val → Val) (hg : Computes (W.method m) body header)
    (s : State) (e : Env) (henv : e py"REQUEST_METHOD" = some py"POST") (hm : Handles W (W.disp d).service e tin m)
    (v h : Val) (doc : Xml) (hs : Survives (W.table (W.disp d).service) W.depth (.complex cin) v)
    (hh : HeaderSurvives (W.table (W.disp d).service) W.depth (headerClass (W.disp d).service (W.method m)) h)
    (hdoc : responseXml (W.disp d).service.version (W.table (W.disp d).service) W.depth tin v h = .ok doc)
    (ht : Travels W doc)
    (hval : ∀ doc' hdr y, W.read (W.write doc) = some doc' → PlainMessage doc' hdr y →
      (W.disp d).validator y = .ok () ∧ ∀ h, hdr = some h → ∀ z ∈ h.kids, HeaderOk W (W.disp d) z)
    (answer : Val → Val → Xml) (hres : ∀ h' p, h'.Same h → p.Same v →
      responseXml (W.disp d).service.version (W.table (W.disp d).service) W.depth tout (body h' p) (header h' p) =
        .ok (answer h' p)) :
    ∃ h' p, h'.Same h ∧ p.Same v ∧ served W d s e (W.write doc) = .ok (W.write (answer h' p)) := by
  have hinst : ∃ fs x, v = .inst cin fs x := by cases hs; exact ⟨_, _, rfl⟩
  obtain ⟨fs, x, rfl⟩ := hinst
  have hpost : IsPost { environ := e, content := W.write doc } := henv
  have hq : ({ s with reqs := s.reqs ++ [{ environ := e, content := W.write doc }] } : State).reqs[s.reqs.length]? =
      some { environ := e, content := W.write doc } := by simp
  generalize hs1 : ({ s with reqs := s.reqs ++ [{ environ := e, content := W.write doc }] } : State) = s1 at hq
  have hq2 := begin_req (d := d) hq
  obtain ⟨hv, p, h1, h2, hcall⟩ := request_call R hq2 rfl hm hg hs hh hdoc rfl ht hval
  have hlt : s.reqs.length < (s1.begin d s.reqs.length { environ := e, content := W.write doc }).reqs.length :=
    (List.getElem?_eq_some_iff.1 hq2).1
  have hinner : inner W d s.reqs.length { environ := e, content := W.write doc } s1 =
      (.ok (.response (mkResponse (.val (body hv p)) (header hv p))),
        ⟨(s1.begin d s.reqs.length { environ := e, content := W.write doc }).reqs.set s.reqs.length
        { environ := e, content := W.write doc, dispatcher := some d, method := some m, soapHeader := hv, soapBody := p },
        (s1.begin d s.reqs.length { environ := e, content := W.write doc }).trace ++ [.method m s.reqs.length
          { environ := e, content := W.write doc, dispatcher := some d, method := some m, soapHeader := hv, soapBody := p } p]⟩) := by
    unfold inner
    rw [R.middlewares]
    simp only [chain]
    rw [hcall]
    simp only [Prog.run', Prog.run, M.bind, getReq, List.getElem?_set_self hlt]
    rfl
  obtain ⟨a, ha1, ha2⟩ := answer_sent (doc := answer hv p) R hq hpost (by rw [hinner]) rfl (by
      intro q' hq'
      rw [hinner] at hq'
      simp only [List.getElem?_set_self hlt] at hq'
      injection hq' with hq'; rw [← hq']) (hres hv p h2 h1)
  refine ⟨hv, p, h2, h1, ?_⟩
  unfold served
  rw [hs1, ha1]
  simp only [ha2]

/-- **C111 (one program).** A client calling an operation with a header gets the object and the header the method computes
from a header and a parameter with the same fields - provided the two documents survive transport and the request is
valid. -/
theorem C111_call (W : World) (d : DispId) (m : MethodId) (op tin tout : Str) (cin cout : ClsId)
    (R : Serves W d m tin tout cin cout)
    (hop : First (fun m => (W.method m).operationName = op) (W.disp d).service.methods m)
    (body header : Val → Val → Val) (hg : Computes (W.method m) body header)
    (s : State) (env : Dict Str → Env) (henv : ∀ hs, env hs py"REQUEST_METHOD" = some py"POST")
    (hm : Handles W (W.disp d).service
      (env ((W.disp d).service.version.requestHeaders (W.method m).soapAction)) tin m)
    (v h : Val) (doc : Xml) (hs : Survives (W.table (W.disp d).service) W.depth (.complex cin) v)
    (hh : HeaderSurvives (W.table (W.disp d).service) W.depth (headerClass (W.disp d).service (W.method m)) h)
    (hdoc : callDoc W (W.disp d).service (W.method m) v h = .ok doc) (ht : Travels W doc)
    (hval : ∀ doc' hdr y, W.read (W.write doc) = some doc' → PlainMessage doc' hdr y →
      (W.disp d).validator y = .ok () ∧ ∀ h, hdr = some h → ∀ z ∈ h.kids, HeaderOk W (W.disp d) z)
    (hres : ∀ h' p, h'.Same h → p.Same v → ∃ doc',
      Survives (W.table (W.disp d).service) W.depth (.complex cout) (body h' p) ∧
      HeaderSurvives (W.table (W.disp d).service) W.depth (W.method m).outputHeader (header h' p) ∧
      responseXml (W.disp d).service.version (W.table (W.disp d).service) W.depth tout (body h' p) (header h' p) =
        .ok doc' ∧ Travels W doc') :
    ∃ h' p w hw, h'.Same h ∧ p.Same v ∧ w.Same (body h' p) ∧ hw.Same (header h' p) ∧
      stubCall W (W.disp d).service (fun hs content => served W d s (env hs) content) op v h =
        .ok (mkResponse (.val w) hw) := by
  have hmeth := getMethod_iff.2 hop
  have hdoc' : responseXml (W.disp d).service.version (W.table (W.disp d).service) W.depth tin v h = .ok doc := by
    have h := hdoc
    unfold callDoc callTag at h
    rw [R.input] at h
    exact h
  have : ∃ answer : Val → Val → Xml, ∀ h' p, h'.Same h → p.Same v →
      Survives (W.table (W.disp d).service) W.depth (.complex cout) (body h' p) ∧
      HeaderSurvives (W.table (W.disp d).service) W.depth (W.method m).outputHeader (header h' p) ∧
      responseXml (W.disp d).service.version (W.table (W.disp d).service) W.depth tout (body h' p) (header h' p) =
        .ok (answer h' p) ∧ Travels W (answer h' p) := by
    classical
    refine ⟨fun h' p => if hp : h'.Same h ∧ p.Same v then (hres h' p hp.1 hp.2).choose else .comment, fun h' p e1 e2 => ?_⟩
    dsimp only
    rw [dif_pos (c := h'.Same h ∧ p.Same v) ⟨e1, e2⟩]
    exact (hres h' p e1 e2).choose_spec
  obtain ⟨answer, hres⟩ := this
  obtain ⟨h', p, h1, h2, h3⟩ := C111_served W d m tin tout cin cout R body header hg s _ (henv _) hm v h doc hs hh hdoc' ht hval
    answer fun h' p e1 e2 => (hres h' p e1 e2).2.2.1
  obtain ⟨r1, r2, r3, r4⟩ := hres h' p h1 h2
  have hinst : ∃ fs x, body h' p = .inst cout fs x := by
    generalize body h' p = b at r1
    cases r1; exact ⟨_, _, rfl⟩
  obtain ⟨fs, x, hb⟩ := hinst
  rw [hb] at r1 r3
  obtain ⟨w, hw, hw1, hw2, hw3⟩ := answer_back R r1 r2 r3 r4
  refine ⟨h', p, w, hw, h1, h2, by rw [hb]; exact hw1, hw2, ?_⟩
  unfold stubCall
  simp only [hmeth, hdoc, raised, bind, Except.bind, h3]
  rw [hw3]

/-- Headers that go together: none, or objects. -/
theorem header_pair {R : ClsId → ClsId → Prop} {T T' : Table} (hP : Paired R T T') (hT : T.Wf) (hT' : T'.Sane)
    (hU : ∀ c c', R c c' → Unambiguous T' c') {N : Nat} {cls' : Option ClsId} {h : Val} (hh : HeaderSent R T N cls' h) :
    ∃ h', ValPair R T T' h h' ∧ HeaderSurvives T' N cls' h' := by
  rcases hh with rfl | ⟨c, c', hr, hc, hs⟩
  · exact ⟨Val.none, .atom, .inl rfl⟩
  · obtain ⟨h', hp, hs'⟩ := C103_counterpart hP hT hT' hU N c c' hr h hs
    refine ⟨h', hp, .inr ?_⟩
    cases hs' with
    | inst a1 a2 a3 a4 a5 a6 => exact ⟨_, _, _, hc, rfl, .inst a1 a2 a3 a4 a5 a6⟩

/-- The documents of paired objects with paired headers are the same. -/
theorem message_pair {R : ClsId → ClsId → Prop} {W W' : World} {S S' : Service} (hW : Partners R W S W' S')
    (hD : 4 ≤ W.depth) {c c' : ClsId} {fs fs' : List (Str × Val)} {x x' : Option Xml} {h h' : Val}
    (hv : ValPair R (W.table S) (W'.table S') (.inst c fs x) (.inst c' fs' x'))
    (hh : ValPair R (W.table S) (W'.table S') h h') (hn : h = Val.none ∨ ∃ c fs x, h = .inst c fs x) (tag : Str) :
    responseXml S.version (W.table S) W.depth tag (.inst c fs x) h =
      responseXml S'.version (W'.table S') W'.depth tag (.inst c' fs' x') h' := by
  rcases hn with rfl | ⟨ch, hfs, hx, rfl⟩
  · cases hh
    exact responseXml_pair hW hD hv tag
  obtain ⟨k, hk⟩ := world_depth hD
  cases hv with
  | inst hr h1 h2 h3 =>
  cases hh with
  | @inst _ ch' _ hfs' _ hx' hr' h1' h2' h3' =>
    have hroot := hW.roots _ _ hr
    have hP := hW.classes
    have hc := hP _ _ hr
    have hc' := hP _ _ hr'
    have hren := fun ns q => renderFields_pair hP (renderCls_pair hP hW.sane.1.names hW.sane.2.names (k + 1)) ns q hc.fields
      (pairs_get hc.fields h1 h2 (hW.sane.1.names _) (hW.sane.2.names _) h3)
    have hren' := fun ns q => renderFields_pair hP (renderCls_pair hP hW.sane.1.names hW.sane.2.names (k + 2)) ns q hc'.fields
      (pairs_get hc'.fields h1' h2' (hW.sane.1.names _) (hW.sane.2.names _) h3')
    have hs := hc.schema
    have hs' := hc'.schema
    unfold World.table at hroot hren hren' hs hs' ⊢
    rw [← hW.depth, hk, responseXml_inst, responseXml_inst]
    rw [if_pos (by simpa [isSub] using hroot.1), if_pos (by simpa [isSub] using hroot.2)]
    cases hsc : (soapTable S'.version W'.user ch').schema with
    | none =>
      rw [hsc] at hs'
      rw [envelopeXml_schemaless _ _ _ _ _ _ hs', envelopeXml_schemaless _ _ _ _ _ _ hsc]
    | some sc =>
      rw [hsc] at hs'
      rw [envelopeXml_header _ _ _ _ _ _ (by rw [hs']; simp), envelopeXml_header _ _ _ _ _ _ (by rw [hsc]; simp)]
      rw [renderBody_named, renderBody_named, hs]
      cases hb : (soapTable S'.version W'.user c').schema with
      | none =>
        simp only [hren']
        simp only [hW.version]
      | some s =>
        simp only [hren, hren']
        simp only [hW.version]

/-- **C111.** From end to end, between programs with classes of their own: a client calls an operation with a header, the
method computes object and header of its response from the header and the parameter it gets.  These go with what the
client sent, and what the client gets goes with them. -/
theorem C111_partners {R : ClsId → ClsId → Prop} (W : World) (S : Service) (W' : World) (d : DispId)
    (hW : Partners R W S W' (W'.disp d).service) (m₀ m : MethodId) (op tin tout : Str) (cin cout cin' cout' : ClsId)
    (hcin : R cin cin') (hcout : R cout cout') (hcl : ClientMethod W S m₀ op tin tout cout)
    (hs : Serves W' d m tin tout cin' cout')
    (body header : Val → Val → Val) (hg : Computes (W'.method m) body header)
    (s : State) (env : Dict Str → Env) (henv : ∀ hs, env hs py"REQUEST_METHOD" = some py"POST")
    (hm : Handles W' (W'.disp d).service (env (S.version.requestHeaders (W.method m₀).soapAction)) tin m)
    (v h : Val) (doc : Xml) (hv : Survives (W.table S) W.depth (.complex cin) v)
    (hh : HeaderSent R (W.table S) W.depth (headerClass (W'.disp d).service (W'.method m)) h)
    (hdoc : callDoc W S (W.method m₀) v h = .ok doc) (ht : Travels W doc)
    (hval : ∀ doc' hdr y, W'.read (W.write doc) = some doc' → PlainMessage doc' hdr y →
      (W'.disp d).validator y = .ok () ∧ ∀ h, hdr = some h → ∀ z ∈ h.kids, HeaderOk W' (W'.disp d) z)
    (hres : ∀ h' p, ValPair R (W.table S) (W'.table (W'.disp d).service) h h' →
      ValPair R (W.table S) (W'.table (W'.disp d).service) v p → ∃ doc',
      Survives (W'.table (W'.disp d).service) W'.depth (.complex cout') (body h' p) ∧
      HeaderSent (fun c' c => R c c') (W'.table (W'.disp d).service) W'.depth (W.method m₀).outputHeader (header h' p) ∧
      responseXml (W'.disp d).service.version (W'.table (W'.disp d).service) W'.depth tout (body h' p) (header h' p) =
        .ok doc' ∧ Travels W' doc') :
    ∃ h' p w hw, ValPair R (W.table S) (W'.table (W'.disp d).service) h h' ∧
      ValPair R (W.table S) (W'.table (W'.disp d).service) v p ∧
      ValPair R (W.table S) (W'.table (W'.disp d).service) w (body h' p) ∧
      ValPair R (W.table S) (W'.table (W'.disp d).service) hw (header h' p) ∧
      stubCall W S (fun hs content => served W' d s (env hs) content) op v h = .ok (mkResponse (.val w) hw) := by
  have hD : 4 ≤ W.depth := by rw [hW.depth]; exact hs.depth
  obtain ⟨v', hvv, hv'⟩ := C103_counterpart hW.classes hW.sane.1.names hW.sane.2 (fun c c' h => (hW.unambiguous c c' h).2)
    W.depth cin cin' hcin v hv
  obtain ⟨h', hhh, hh'⟩ := header_pair hW.classes hW.sane.1.names hW.sane.2 (fun c c' h => (hW.unambiguous c c' h).2) hh
  have hdoc1 : responseXml S.version (W.table S) W.depth tin v h = .ok doc := by
    have h := hdoc
    unfold callDoc callTag at h
    rw [hcl.input] at h
    exact h
  have hinst : ∃ fs x fs' x', v = .inst cin fs x ∧ v' = .inst cin' fs' x' := by
    cases hv with
    | inst =>
      cases hv' with
      | inst => exact ⟨_, _, _, _, rfl, rfl⟩
  obtain ⟨fs, x, fs', x', rfl, rfl⟩ := hinst
  have hnone : ∀ {cls} {T : Table} {N} {R'} {h}, HeaderSent R' T N cls h → h = Val.none ∨ ∃ c fs x, h = .inst c fs x := by
    rintro cls T N R' h (rfl | ⟨c, c', _, _, hs⟩)
    · exact .inl rfl
    · cases hs; exact .inr ⟨_, _, _, rfl⟩
  rw [message_pair hW hD hvv hhh (hnone hh)] at hdoc1
  have htr : ∀ {doc}, Travels W doc → Travels W' doc := by
    rintro doc ⟨doc', h1, h2⟩
    exact ⟨doc', by rw [← hW.read, ← hW.write]; exact h1, h2⟩
  have htr' : ∀ {doc}, Travels W' doc → Travels W doc := by
    rintro doc ⟨doc', h1, h2⟩
    exact ⟨doc', by rw [hW.read, hW.write]; exact h1, h2⟩
  have hpair : ∀ {a b : Val}, ValPair R (W.table S) (W'.table (W'.disp d).service) a b → ∀ p : Val, p.Same b →
      ValPair R (W.table S) (W'.table (W'.disp d).service) a p := fun h p hp => (h.swap.same hp).swap
  have : ∃ answer : Val → Val → Xml, ∀ h2 p, h2.Same h' → p.Same (.inst cin' fs' x') →
      Survives (W'.table (W'.disp d).service) W'.depth (.complex cout') (body h2 p) ∧
      HeaderSent (fun c' c => R c c') (W'.table (W'.disp d).service) W'.depth (W.method m₀).outputHeader (header h2 p) ∧
      responseXml (W'.disp d).service.version (W'.table (W'.disp d).service) W'.depth tout (body h2 p) (header h2 p) =
        .ok (answer h2 p) ∧ Travels W' (answer h2 p) := by
    classical
    have hres' := fun (h2 p : Val) (e : h2.Same h' ∧ p.Same (.inst cin' fs' x')) =>
      hres h2 p (hpair hhh h2 e.1) (hpair hvv p e.2)
    refine ⟨fun h2 p => if hp : h2.Same h' ∧ p.Same (.inst cin' fs' x') then (hres' h2 p hp).choose else .comment,
      fun h2 p e1 e2 => ?_⟩
    dsimp only
    rw [dif_pos (c := h2.Same h' ∧ p.Same (.inst cin' fs' x')) ⟨e1, e2⟩]
    exact (hres' h2 p ⟨e1, e2⟩).choose_spec
  obtain ⟨answer, hres2⟩ := this
  obtain ⟨h2, p, e1, e2, e3⟩ := C111_served W' d m tin tout cin' cout' hs body header hg s _ (henv _) hm _ h' doc
    (by rw [← hW.depth]; exact hv') (by rw [← hW.depth]; exact hh') hdoc1 (htr ht) (by rw [← hW.write]; exact hval)
    answer fun h2 p e1 e2 => (hres2 h2 p e1 e2).2.2.1
  obtain ⟨r1, r2, r3, r4⟩ := hres2 h2 p e1 e2
  obtain ⟨u, huv, hu⟩ := C103_counterpart hW.classes.swap hW.sane.2.names hW.sane.1 (fun c c' h => (hW.unambiguous c' c h).1)
    W'.depth cout' cout hcout _ r1
  obtain ⟨uh, huh, hus⟩ := header_pair hW.classes.swap hW.sane.2.names hW.sane.1 (fun c c' h => (hW.unambiguous c' c h).1) r2
  have huinst : ∃ fs x fs' x', u = .inst cout fs x ∧ body h2 p = .inst cout' fs' x' := by
    generalize body h2 p = b at r1
    cases r1; cases hu; exact ⟨_, _, _, _, rfl, rfl⟩
  obtain ⟨fs3, x3, fs4, x4, rfl, hb⟩ := huinst
  obtain ⟨e, he1, he2⟩ := hcl.outputType
  have hdoc2 : responseXml S.version (W.table S) W.depth tout (.inst cout fs3 x3) uh = .ok (answer h2 p) := by
    have hn : uh = Val.none ∨ ∃ c fs x, uh = .inst c fs x := by
      rcases hus with h | ⟨c, fs, x, _, h, _⟩
      · exact .inl h
      · exact .inr ⟨c, fs, x, h⟩
    have hbv := huv.swap
    rw [hb] at hbv r3
    rw [message_pair hW hD hbv huh.swap hn]; exact r3
  obtain ⟨w, hw, hw1, hw2, hw3⟩ := C52_client W S (W.method m₀) tout cout hD hW.sane.1 hs.outputName.1 hs.outputName.2
    (.inr ⟨tout, e, hcl.output, he1, he2⟩) fs3 x3 uh _ (by rw [hW.depth]; exact hu) (by rw [hW.depth]; exact hus) hdoc2 (htr' r4)
  refine ⟨h2, p, w, hw, hpair hhh h2 e1, hpair hvv p e2, huv.swap.same hw1, huh.swap.same hw2, ?_⟩
  unfold stubCall
  have h6' : served W' d s (env (S.version.requestHeaders (W.method m₀).soapAction)) (W.write doc) =
      .ok (W.write (answer h2 p)) := by
    rw [hW.write]; exact e3
  simp only [getMethod_iff.2 hcl.method, hdoc, raised, bind, Except.bind, h6']
  exact hw3

namespace ExHead

/-- The method greets whoever it is called with and sends the header it got back. -/
def hello : Method := { ExC.hello with
  outputHeader := some 10
  function := some fun r p => .get r fun q => .ret (.response (mkResponse (.val (ExC.greet p)) q.soapHeader)) }

/-- Writing and reading the documents of the example: as numbers. -/
def write : Xml → Bytes
  | .elem _ _ _ [_, .elem _ _ _ [.elem ⟨_, n⟩ _ _ _]] => if n = py"sayHello" then [1] else [2]
  | _ => [0]
def read : Bytes → Option Xml
  | [1] => some (ExC.env [ExC.headerDoc, ExC.bodyDoc ExC.ask])
  | [2] => some (ExC.env [ExC.headerDoc, ExC.bodyDoc ExC.tell])
  | _ => none

def server : World := { ExC.world hello with read := read, write := write }

theorem serves : Serves server 0 0 py"sayHello" py"sayHelloResponse" 8 9 :=
  ⟨by decide, ExC.sane, rfl, rfl, rfl, rfl, ⟨_, rfl, rfl⟩, by decide, rfl, ⟨_, rfl, rfl⟩, by decide⟩

theorem back (x : Xml) (h : All2 Back [x] [x]) : Back (ExC.env [ExC.headerDoc, ExC.bodyDoc x])
    (ExC.env [ExC.headerDoc, ExC.bodyDoc x]) :=
  ExC.nest_back (.cons (ExC.nest_back (.cons (ExC.text_back _ _ _) .nil)) (.cons (ExC.nest_back h) .nil))

/-- What has the same fields as the header, or as the greeted person, is one of these instances. -/
theorem same_one {c : ClsId} {n t : Str} {x : Option Xml} {p : Val} (hp : p.Same (.inst c [(n, .atom (.str t))] x)) :
    ∃ x', p = .inst c [(n, .atom (.str t))] x' := by
  unfold Val.Same at hp
  cases p with
  | inst c fs x =>
    match fs with
    | [] => simp [Val.eraseWith, eraseFields] at hp
    | [(n, v)] =>
      simp only [Val.eraseWith, eraseFields, erasePair, Val.inst.injEq, List.cons.injEq, Prod.mk.injEq, and_true] at hp
      obtain ⟨rfl, rfl, hv⟩ := hp
      cases v with
      | atom a =>
        simp only [Val.eraseWith] at hv
        injection hv with hv
        subst hv
        exact ⟨_, rfl⟩
      | _ => simp [Val.eraseWith] at hv
    | _ :: _ :: _ => simp [Val.eraseWith, eraseFields] at hp
  | _ => simp [Val.eraseWith] at hp

theorem valid (doc' : Xml) (hdr : Option Xml) (y : Xml) (hd : read [1] = some doc') (hp : PlainMessage doc' hdr y) :
    (server.disp 0).validator y = .ok () ∧ ∀ h, hdr = some h → ∀ z ∈ h.kids, HeaderOk server (server.disp 0) z := by
  injection hd with hd
  subst hd
  refine ⟨rfl, fun h hh z hz => ?_⟩
  obtain ⟨_, _, _, _, _, _, _, he, _⟩ := hp
  subst hh
  injection he with _ _ _ he
  injection he with he _
  subst he
  cases hz with
  | head => exact ⟨_, _, _, _, rfl, fun _ => rfl, fun _ => .inl rfl⟩
  | tail _ h => cases h

/-- A call with a header, which comes back with the greeting. -/
example : ∃ h' p w hw, h'.Same ExC.auth ∧ p.Same ExC.call ∧ w.Same (ExC.greet p) ∧ hw.Same h' ∧
    stubCall server (server.disp 0).service (fun hs content => served server 0 {} (ExC.environ hs) content) py"SayHello"
      ExC.call ExC.auth = .ok (mkResponse (.val w) hw) := by
  refine C111_call server 0 0 py"SayHello" _ _ 8 9 serves ⟨[], [], rfl, rfl, by simp⟩ (fun _ p => ExC.greet p)
    (fun h _ => h) rfl {} ExC.environ (fun _ => rfl) (.input (fun a h => ?_) ⟨[], [], rfl, rfl, by simp⟩) _ _
    (ExC.env [ExC.headerDoc, ExC.bodyDoc ExC.ask]) (ExC.survives 8 _ _ none (.inl ⟨rfl, rfl⟩) (by decide))
    (.inr ⟨10, _, none, rfl, rfl, ExC.survives 10 _ _ none (.inr (.inr ⟨rfl, rfl⟩)) (by decide)⟩) rfl
    ⟨_, rfl, back _ (.cons (ExC.nest_back (.cons (ExC.text_back _ _ _) .nil)) .nil)⟩ valid fun h' p hh hp => ?_
  · have : Version.determineAction .soap11 (ExC.environ (Version.soap11.requestHeaders py"urn:x/hello")) = none := by
      decide +kernel
    exact absurd (this.symm.trans h.1) (by simp)
  · obtain ⟨x, rfl⟩ := same_one hh
    obtain ⟨y, rfl⟩ := same_one hp
    exact ⟨ExC.env [ExC.headerDoc, ExC.bodyDoc ExC.tell], ExC.survives 9 _ _ _ (.inr (.inl ⟨rfl, rfl⟩)) (by decide),
      .inr ⟨10, _, x, rfl, rfl, ExC.survives 10 _ _ _ (.inr (.inr ⟨rfl, rfl⟩)) (by decide)⟩, rfl, _, rfl,
      back _ (.cons (ExC.nest_back (.cons (ExC.text_back _ _ _) .nil)) .nil)⟩

/-- The classes of a client with a class `Key` (class 22) for the header, whose field `secret` is written as 'token'. -/
def user : Table
  | 22 => { name := py"Key", mro := [22, 0], schema := some ⟨some ExC.ns, false⟩, fields := [
      { name := py"secret", kind := .element, type := .simple (.string {}), tagname := some py"token" }] }
  | n => ExP.user n

def client : World := { server with user := user, schema := fun _ => ExP.schema
                                    method := fun _ => { ExP.hello with outputHeader := some 22 } }

/-- `Key` goes with `Auth`. -/
def R : ClsId → ClsId → Prop := fun c c' => c = 20 ∧ c' = 8 ∨ c = 21 ∧ c' = 9 ∨ c = 22 ∧ c' = 10

theorem sane : (soapTable .soap11 user).Sane where
  names := by
    intro c
    match c with
    | 0 | 1 | 2 | 3 | 4 | 5 | 6 | 7 | 8 | 9 | 10 | 11 | 12 | 13 | 14 | 15 | 16 | 17 | 18 | 19 | 20 | 21 | 22 => decide
    | n + 23 => exact List.Pairwise.nil
  self := by
    intro c
    match c with
    | 0 | 1 | 2 | 3 | 4 | 5 | 6 | 7 | 8 | 9 | 10 | 11 | 12 | 13 | 14 | 15 | 16 | 17 | 18 | 19 | 20 | 21 | 22 => decide
    | n + 23 => simp [soapTable, user, ExP.user]
  defaults := by
    intro c f c' hf ht
    refine .inr ?_
    have : f.default = Val.none := by
      match c with
      | 0 | 1 | 2 | 3 | 4 | 5 | 6 | 7 | 8 | 9 | 10 | 11 | 12 | 13 | 14 | 15 | 16 | 17 | 18 | 19 | 20 | 21 | 22 =>
        simp [soapTable, user, ExP.user, Version.faultFields] at hf
        try (first | subst hf; rfl | rcases hf with rfl | rfl <;> rfl | rcases hf with rfl | rfl | rfl <;> rfl)
      | n + 23 => simp [soapTable, user, ExP.user] at hf
    rw [this]; exact .none

theorem partners : Partners R client ExP.service server (server.disp 0).service where
  depth := rfl
  read := rfl
  write := rfl
  version := rfl
  sane := ⟨sane, ExC.sane⟩
  classes := by
    rintro c c' (⟨rfl, rfl⟩ | ⟨rfl, rfl⟩ | ⟨rfl, rfl⟩)
    all_goals
      refine ⟨.cons ?_ .nil, rfl, rfl, rfl, rfl⟩
      exact ⟨rfl, nofun, rfl, nofun, .simple (fun _ => rfl) (fun _ => rfl) (fun _ => rfl) (Iff.refl _), rfl, ⟨_, rfl, rfl⟩,
        rfl, rfl, rfl, rfl⟩
  roots := by
    rintro c c' (⟨rfl, rfl⟩ | ⟨rfl, rfl⟩ | ⟨rfl, rfl⟩) <;> exact ⟨by decide, by decide⟩
  unambiguous := by
    rintro c c' (⟨rfl, rfl⟩ | ⟨rfl, rfl⟩ | ⟨rfl, rfl⟩)
    all_goals
      refine ⟨fun n => ?_, ExC.unambiguous _ (by simp)⟩
      match n with
      | 0 => exact .nil
      | n + 1 => exact .cons (by simp) .nil

theorem survives (c : ClsId) (n t : Str) (x : Option Xml) (hc : c = 20 ∧ n = py"who" ∨ c = 22 ∧ n = py"secret")
    (ht : t ≠ []) : Survives (client.table ExP.service) 10 (.complex c) (.inst c [(n, .atom (.str t))] x) := by
  rcases hc with ⟨rfl, rfl⟩ | ⟨rfl, rfl⟩
  · refine .inst rfl rfl (partners.unambiguous 20 8 (.inl ⟨rfl, rfl⟩)).1 (i := _) rfl rfl ?_
    intro f v hf hv
    simp only [World.table, client, server, soapTable, user, ExP.user, List.mem_cons, List.not_mem_nil, or_false] at hf
    subst hf
    injection hv with hv; subst hv
    exact .element rfl (by simp) (C25_strings _ _ _ _ ht rfl)
  · refine .inst rfl rfl (partners.unambiguous 22 10 (.inr (.inr ⟨rfl, rfl⟩))).1 (i := _) rfl rfl ?_
    intro f v hf hv
    simp only [World.table, client, server, soapTable, user, List.mem_cons, List.not_mem_nil, or_false] at hf
    subst hf
    injection hv with hv; subst hv
    exact .element rfl (by simp) (C25_strings _ _ _ _ ht rfl)

/-- The client's header of class `Key`. -/
def key : Val := .inst 22 [(py"secret", .atom (.str py"t"))] none

/-- What goes with an instance of one text. -/
theorem pair_one {c : ClsId} {n t : Str} {x : Option Xml} {p : Val}
    (h : ValPair R (client.table ExP.service) (server.table (server.disp 0).service) (.inst c [(n, .atom (.str t))] x) p) :
    ∃ c' n' x', p = .inst c' [(n', .atom (.str t))] x' ∧ R c c' ∧
      [n'] = (soapTable .soap11 ExC.user c').fields.map (·.name) := by
  cases h with
  | @inst _ c' _ fs' _ x' hr h1 h2 h3 =>
    match fs', h2, h3 with
    | [(n, v)], h2, .cons hv .nil =>
      cases hv
      exact ⟨_, _, _, rfl, hr, h2⟩

/-- The client calls with a `Question` and a `Key`, and gets an `Answer` and a `Key`. -/
example : ∃ h' p w hw, ValPair R (client.table ExP.service) (server.table (server.disp 0).service) key h' ∧
    ValPair R (client.table ExP.service) (server.table (server.disp 0).service) ExP.call p ∧
    ValPair R (client.table ExP.service) (server.table (server.disp 0).service) w (ExC.greet p) ∧
    ValPair R (client.table ExP.service) (server.table (server.disp 0).service) hw h' ∧
    stubCall client ExP.service (fun hs content => served server 0 {} (ExC.environ hs) content) py"Hello" ExP.call key =
      .ok (mkResponse (.val w) hw) := by
  refine C111_partners client ExP.service server 0 partners 0 0 py"Hello" py"sayHello" py"sayHelloResponse" 20 21 8 9
    (.inl ⟨rfl, rfl⟩) (.inr (.inl ⟨rfl, rfl⟩)) ⟨⟨[], [], rfl, rfl, by simp⟩, rfl, rfl, _, rfl, rfl⟩ serves
    (fun _ p => ExC.greet p) (fun h _ => h) rfl {} ExC.environ (fun _ => rfl)
    (.input (fun a h => ?_) ⟨[], [], rfl, rfl, by simp⟩) ExP.call key
    (ExC.env [ExC.headerDoc, ExC.bodyDoc ExC.ask]) (survives 20 _ _ none (.inl ⟨rfl, rfl⟩) (by decide))
    (.inr ⟨22, 10, .inr (.inr ⟨rfl, rfl⟩), rfl, survives 22 _ _ none (.inr ⟨rfl, rfl⟩) (by decide)⟩) rfl
    ⟨_, rfl, back _ (.cons (ExC.nest_back (.cons (ExC.text_back _ _ _) .nil)) .nil)⟩ valid fun h' p hh hp => ?_
  · have : Version.determineAction .soap11 (ExC.environ (Version.soap11.requestHeaders py"urn:x/hello")) = none := by
      decide +kernel
    exact absurd (this.symm.trans h.1) (by simp)
  · obtain ⟨c1, n1, x1, rfl, hr1, hn1⟩ := pair_one hh
    obtain ⟨c2, n2, x2, rfl, hr2, hn2⟩ := pair_one hp
    rcases hr1 with ⟨h, _⟩ | ⟨h, _⟩ | ⟨_, rfl⟩
    · cases h
    · cases h
    rcases hr2 with ⟨_, rfl⟩ | ⟨h, _⟩ | ⟨h, _⟩
    · have e1 : n1 = py"token" := by simpa [soapTable, ExC.user] using hn1
      have e2 : n2 = py"name" := by simpa [soapTable, ExC.user] using hn2
      subst e1 e2
      exact ⟨ExC.env [ExC.headerDoc, ExC.bodyDoc ExC.tell], ExC.survives 9 _ _ _ (.inr (.inl ⟨rfl, rfl⟩)) (by decide),
        .inr ⟨10, 22, .inr (.inr ⟨rfl, rfl⟩), rfl, ExC.survives 10 _ _ _ (.inr (.inr ⟨rfl, rfl⟩)) (by decide)⟩, rfl, _, rfl,
        back _ (.cons (ExC.nest_back (.cons (ExC.text_back _ _ _) .nil)) .nil)⟩
    · cases h
    · cases h

end ExHead

end Soapfish
