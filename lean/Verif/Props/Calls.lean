import Verif.Spec.Calls
import Verif.CallLemmas
import Verif.Props.Answer
import Verif.Props.Action
/-
Faults and calls from end to end: C51, C52, C53, C54.
-/
namespace Soapfish

/-! ### C51: faults -/

/-- What becomes of a text: an empty one is read as None. -/
def orNone : Option Str → Val
  | some (c :: cs) => .atom (.str (c :: cs))
  | _ => Val.none

/-- A text as it is after reading. -/
def someText : Str → Option Str
  | [] => none
  | c :: cs => some (c :: cs)

theorem back_text {s : Str} {ns : Option Str} {l : Str} {a : List (QName × Str)} {y : Xml}
    (h : Back (.elem ⟨ns, l⟩ a (some s) []) y) : y = .elem ⟨ns, l⟩ a (someText s) [] := by
  cases h with
  | elem ht hk =>
    cases hk
    unfold TextBack at ht
    rw [if_pos rfl] at ht
    cases s <;> exact congrArg (fun t => Xml.elem ⟨ns, l⟩ a t []) ht

theorem fault_back11 {U : Table} {k : Nat} {code message : Str} {actor : Option Str} {doc : Xml}
    (hb : Back (faultDoc .soap11 code message actor) doc) : ∃ bx fv, parseEnvelope (soapTable .soap11 U) (k + 4) doc =
      .ok (.inst cEnvelope [(py"Header", Val.none), (py"Body", .inst cBody [(py"message", Val.none), (py"Fault", fv)] bx)]
        (some doc)) ∧ fv.isNone = false ∧ faultParts .soap11 fv = .ok (orNone (some code), orNone (some message), orNone actor) := by
  unfold faultDoc at hb
  cases hb with
  | elem _ hk => cases hk with
    | cons hbody hk =>
      cases hk
      cases hbody with
      | elem _ hk => cases hk with
        | cons hfault hk =>
          cases hk
          cases hfault with
          | elem _ hk => cases hk with
            | cons h1 hk => cases hk with
              | cons h2 hk =>
                rw [back_text h1, back_text h2]
                cases actor with
                | none =>
                  cases hk
                  cases code <;> cases message <;> exact ⟨_, _, rfl, rfl, rfl⟩
                | some a =>
                  cases hk with
                  | cons h3 hk =>
                    cases hk
                    rw [back_text h3]
                    cases code <;> cases message <;> cases a <;> exact ⟨_, _, rfl, rfl, rfl⟩

theorem fault_back12 {U : Table} {k : Nat} {code message : Str} {actor : Option Str} {doc : Xml}
    (hb : Back (faultDoc .soap12 code message actor) doc) : ∃ bx fv, parseEnvelope (soapTable .soap12 U) (k + 4) doc =
      .ok (.inst cEnvelope [(py"Header", Val.none), (py"Body", .inst cBody [(py"message", Val.none), (py"Fault", fv)] bx)]
        (some doc)) ∧ fv.isNone = false ∧ faultParts .soap12 fv = .ok (orNone (some code), orNone (some message), orNone actor) := by
  unfold faultDoc at hb
  cases hb with
  | elem _ hk => cases hk with
    | cons hbody hk =>
      cases hk
      cases hbody with
      | elem _ hk => cases hk with
        | cons hfault hk =>
          cases hk
          cases hfault with
          | elem _ hk => cases hk with
            | cons h1 hk => cases hk with
              | cons h2 hk =>
                cases h1 with
                | elem _ h1 => cases h1 with
                  | cons h1 h1' =>
                    cases h1'
                    cases h2 with
                    | elem _ h2 => cases h2 with
                      | cons h2 h2' =>
                        cases h2'
                        rw [back_text h1, back_text h2]
                        cases actor with
                        | none =>
                          cases hk
                          cases code <;> cases message <;> exact ⟨_, _, rfl, rfl, rfl⟩
                        | some a =>
                          cases hk with
                          | cons h3 hk =>
                            cases hk
                            rw [back_text h3]
                            cases code <;> cases message <;> cases a <;> exact ⟨_, _, rfl, rfl, rfl⟩

theorem fault_back {v : Version} {U : Table} {k : Nat} {code message : Str} {actor : Option Str} {doc : Xml}
    (hb : Back (faultDoc v code message actor) doc) : ∃ bx fv, parseEnvelope (soapTable v U) (k + 4) doc =
      .ok (.inst cEnvelope [(py"Header", Val.none), (py"Body", .inst cBody [(py"message", Val.none), (py"Fault", fv)] bx)]
        (some doc)) ∧ fv.isNone = false ∧ faultParts v fv = .ok (orNone (some code), orNone (some message), orNone actor) := by
  cases v
  · exact fault_back11 hb
  · exact fault_back12 hb

/-- **C51.** A fault envelope can be built from every code, message and actor that XML allows, and after writing and
reading it the parts are the same, empty texts being None. -/
theorem C51_fault (v : Version) (U : Table) (D : Nat) (hD : 4 ≤ D) (code message : Str) (actor : Option Str)
    (hc : XmlOk code) (hm : XmlOk message) (ha : ∀ a, actor = some a → XmlOk a) :
    ∃ doc, errorXml v (soapTable v U) D code message actor Val.none = .ok doc ∧
      ∀ doc', Back doc doc' → ∃ env body fault, parseEnvelope (soapTable v U) D doc' = .ok env ∧
        env.getA py"Body" = .ok body ∧ body.getA py"Fault" = .ok fault ∧ fault.isNone = false ∧
        faultParts v fault = .ok (orNone (some code), orNone (some message), orNone actor) := by
  obtain ⟨k, rfl⟩ : ∃ k, D = k + 4 := ⟨D - 4, by omega⟩
  refine ⟨_, errorXml_ok v U k hc hm ha, fun doc' hb => ?_⟩
  obtain ⟨bx, fv, h1, h2, h3⟩ := fault_back (U := U) (k := k) hb
  exact ⟨_, _, fv, h1, rfl, rfl, h2, h3⟩

/-! ### C52: calls -/

theorem back_mkElem_named {q : QName} {o : Out} {y : Xml} (h : Back (mkElem q o none) y) : y.Named q.loc := by
  cases h with
  | elem _ _ => exact ⟨_, _, _, _, rfl, rfl⟩

/-- A message written for an object and a header, after reading: an ordinary message from which both are read. -/
theorem message_back {v : Version} {U : Table} {k : Nat} (hT : (soapTable v U).Sane) {tag : Str} {c : ClsId}
    {fs : List (Str × Val)} {x : Option Xml} {header : Val} {doc doc' : Xml} {hc : Option ClsId}
    (hs : Survives (soapTable v U) (k + 4) (.complex c) (.inst c fs x))
    (hh : HeaderSurvives (soapTable v U) (k + 4) hc header) (h1 : tag ≠ py"message") (h2 : tag ≠ py"Fault")
    (h : responseXml v (soapTable v U) (k + 4) tag (.inst c fs x) header = .ok doc) (hb : Back doc doc') :
    ∃ hdr y w, PlainMessage doc' hdr y ∧ y.Named tag ∧ parseCls (soapTable v U) (k + 4) (k + 4) c y = .ok w ∧
      w.Same (.inst c fs x) ∧
      ((header = Val.none ∧ hdr = none) ∨
        ∃ hx cx wh, hdr = some hx ∧ hc = some cx ∧ parseCls (soapTable v U) (k + 4) (k + 4) cx hx = .ok wh ∧
          wh.Same header) := by
  have hsh : header = Val.none ∨ ∃ ch hfs hx, header = .inst ch hfs hx := by
    rcases hh with h | ⟨c, fs, x, _, h, _⟩
    · exact .inl h
    · exact .inr ⟨c, fs, x, h⟩
  obtain ⟨s, o, hdr, hsch, ho, hhdr, rfl⟩ := responseXml_shape hsh h
  cases hb with
  | elem _ hk =>
    rcases hhdr with ⟨rfl, rfl⟩ | ⟨ch, hfs, hx, oh, rfl, hoh, rfl⟩
    · cases hk with
      | cons hbody hk =>
        cases hk
        cases hbody with
        | elem _ hk =>
          cases hk with
          | @cons _ y _ _ hy hk =>
            cases hk
            obtain ⟨_, w, hw, hsame⟩ := object_back hT (m := k + 4) (by omega) hs ho hy
            refine ⟨none, y, w, ?_, back_mkElem_named hy, hw, hsame, .inl ⟨rfl, rfl⟩⟩
            exact ⟨_, _, _, _, _, _, tag, rfl, rfl, by simp [attrGet], back_mkElem_named hy, h1, h2, by simp⟩
    · cases hk with
      | @cons _ hy _ _ hhb hk => cases hk with
        | cons hbody hk =>
        cases hk
        cases hbody with
        | elem _ hk =>
          cases hk with
          | @cons _ y _ _ hyb hk =>
            cases hk
            obtain ⟨_, w, hw, hsame⟩ := object_back hT (m := k + 4) (by omega) hs ho hyb
            rcases hh with hh | ⟨cx, fs', x', hcx, hh, hsv⟩
            · cases hh
            · injection hh with e1 e2 e3
              subst e1 e2 e3
              obtain ⟨hnil, wh, hwh, hsameh⟩ := object_back hT (m := k + 4) (by omega) hsv hoh hhb
              refine ⟨some hy, y, w, ?_, back_mkElem_named hyb, hw, hsame, .inr ⟨hy, _, wh, rfl, hcx, hwh, hsameh⟩⟩
              refine ⟨_, _, _, _, _, _, tag, rfl, rfl, by simp [attrGet], back_mkElem_named hyb, h1, h2, ?_⟩
              intro h' e
              injection e with e; subst e
              cases hhb with
              | elem _ _ =>
                refine ⟨_, _, _, _, rfl, rfl, ?_⟩
                simp only [Xml.attr] at hnil
                rw [hnil]
                simp

theorem world_depth {W : World} (h : 4 ≤ W.depth) : ∃ k, W.depth = k + 4 := ⟨W.depth - 4, by omega⟩

/-- What a dispatcher does with a message written by a client. -/
theorem request_call {W : World} {d : DispId} {m : MethodId} {tin tout : Str} {cin cout : ClsId}
    (R : Serves W d m tin tout cin cout) {r : ReqId} {s : State} {q : Req} {fs : List (Str × Val)} {x : Option Xml}
    {header : Val} {doc : Xml} {f : ReqId → Val → Prog Empty Ret}
    (hq : s.reqs[r]? = some q) (hd : q.dispatcher = some d)
    (hm : Handles W (W.disp d).service q.environ tin m) (hf : (W.method m).function = some f)
    (hs : Survives (W.table (W.disp d).service) W.depth (.complex cin) (.inst cin fs x))
    (hh : HeaderSurvives (W.table (W.disp d).service) W.depth (headerClass (W.disp d).service (W.method m)) header)
    (hdoc : responseXml (W.disp d).service.version (W.table (W.disp d).service) W.depth tin (.inst cin fs x) header = .ok doc)
    (hc : q.content = W.write doc) (ht : Travels W doc)
    (hval : ∀ doc' hdr y, W.read q.content = some doc' → PlainMessage doc' hdr y →
      (W.disp d).validator y = .ok () ∧ ∀ h, hdr = some h → ∀ z ∈ h.kids, HeaderOk W (W.disp d) z) :
    ∃ hv p, p.Same (.inst cin fs x) ∧ hv.Same header ∧
      callMethod W r s = M.bind (f r p).run' (fun ret => M.pure (.response ret.toResponse))
      { reqs := s.reqs.set r { q with method := some m, soapHeader := hv, soapBody := p },
        trace := s.trace ++ [.method m r { q with method := some m, soapHeader := hv, soapBody := p } p] } := by
  obtain ⟨k, hk⟩ := world_depth R.depth
  obtain ⟨doc', hr, hb⟩ := ht
  unfold World.table at hs hh hdoc
  rw [hk] at hs hh hdoc
  obtain ⟨hdr, y, w, hp, hn, hw, hsame, hhd⟩ := message_back R.sane hs hh R.inputName.1 R.inputName.2 hdoc hb
  rw [← hc] at hr
  obtain ⟨hv1, hv2⟩ := hval doc' hdr y hr hp
  obtain ⟨e, he, het⟩ := R.inputType
  have hin : ReadsInput W (W.disp d).service m y w := by
    refine .element R.input he ?_
    rw [het, hk]
    exact hw
  have hhead : ∃ hv, hv.Same header ∧ ReadsHeader W (W.disp d).service m hdr hv := by
    rcases hhd with ⟨rfl, rfl⟩ | ⟨hx, cx, wh, rfl, hcx, hwh, hsh⟩
    · exact ⟨Val.none, rfl, .missing⟩
    · refine ⟨wh, hsh, ?_⟩
      unfold headerClass at hcx
      cases hi : (W.method m).inputHeader with
      | some c =>
        rw [hi] at hcx
        injection hcx with hcx; subst hcx
        exact .method hi (by rw [hk]; exact hwh)
      | none =>
        rw [hi] at hcx
        exact .service hi hcx (by rw [hk]; exact hwh)
  obtain ⟨hv, hvs, hrh⟩ := hhead
  exact ⟨hv, w, hsame, hvs, callMethod_plain hq hd R.depth hr hp hv2 hv1 hn hm hrh hin hf⟩

/-- **C52 (request), C54.** The message a client writes for a parameter object and a header object makes the server call
the method, as the first thing that happens, with a parameter that has the same fields, and with the same header in the
request. -/
theorem C52_request (W : World) (d : DispId) (m : MethodId) (tin tout : Str) (cin cout : ClsId)
    (R : Serves W d m tin tout cin cout) (r : ReqId) (s : State) (q : Req) (fs : List (Str × Val)) (x : Option Xml)
    (header : Val) (doc : Xml) (f : ReqId → Val → Prog Empty Ret) (hq : s.reqs[r]? = some q) (hp : IsPost q)
    (hm : Handles W (W.disp d).service q.environ tin m) (hf : (W.method m).function = some f)
    (hs : Survives (W.table (W.disp d).service) W.depth (.complex cin) (.inst cin fs x))
    (hh : HeaderSurvives (W.table (W.disp d).service) W.depth (headerClass (W.disp d).service (W.method m)) header)
    (hdoc : callDoc W (W.disp d).service (W.method m) (.inst cin fs x) header = .ok doc)
    (hc : q.content = W.write doc) (ht : Travels W doc)
    (hval : ∀ doc' hdr y, W.read q.content = some doc' → PlainMessage doc' hdr y →
      (W.disp d).validator y = .ok () ∧ ∀ h, hdr = some h → ∀ z ∈ h.kids, HeaderOk W (W.disp d) z) :
    ∃ q' p, (happened (dispatch W d r) s).head? = some (.method m r q' p) ∧
      p.Same (.inst cin fs x) ∧ q'.soapBody = p ∧ q'.soapHeader.Same header ∧ q'.method = some m := by
  have hdoc : responseXml (W.disp d).service.version (W.table (W.disp d).service) W.depth tin (.inst cin fs x) header =
      .ok doc := by
    unfold callDoc callTag at hdoc
    rw [R.input] at hdoc
    exact hdoc
  have hq2 := begin_req (d := d) hq
  obtain ⟨hv, p, h1, h2, hcall⟩ := request_call R hq2 rfl hm hf hs hh hdoc hc ht hval
  refine ⟨{ q with dispatcher := some d, method := some m, soapHeader := hv, soapBody := p }, p, ?_, h1, rfl, h2, rfl⟩
  unfold happened
  rw [dispatch_post hq hp, handleSoap_run R.requestHook hq, R.middlewares]
  simp only [chain]
  rw [hcall]
  have e1 : Emits (fun _ => True) (M.bind (f r p).run' fun ret => M.pure (Ret.response ret.toResponse)) :=
    .bind (.run' (fun _ => trivial) _) fun _ => .pure _
  generalize M.bind (f r p).run' (fun ret => M.pure (Ret.response ret.toResponse)) = P at e1
  obtain ⟨es, h1, _⟩ := e1 ⟨(s.begin d r q).reqs.set r
      { q with dispatcher := some d, method := some m, soapHeader := hv, soapBody := p },
    (s.begin d r q).trace ++
      [.method m r { q with dispatcher := some d, method := some m, soapHeader := hv, soapBody := p } p]⟩
  have e2 : ∀ o, Emits (fun _ => True) (afterChain W d r o) := by
    intro o
    unfold afterChain
    exact .bind (.lift _) fun _ => .bind (.getReq _) fun _ => .bind (.lift _) fun _ =>
      callResponseHook_emits (fun _ => trivial) _ _ _ _ trivial
  obtain ⟨es', h2, _⟩ := e2 _ _
  rw [h2, h1]
  have : (s.begin d r q).trace = s.trace := rfl
  rw [this, List.append_assoc, List.append_assoc, List.drop_left]
  rfl

theorem readAnswer_ok {W : World} {S : Service} {m : Method} {env h hv b w : Val} (h1 : env.getA py"Header" = .ok h)
    (h2 : answerHeader W S m h = .ok hv) (h3 : env.getA py"Body" = .ok b) (h4 : b.getA py"Fault" = .ok Val.none)
    (h5 : answerBody W S m b = .ok w) : readAnswer W S m env = .ok (mkResponse (.val w) hv) := by
  unfold readAnswer
  simp only [h1, h2, h3, h4, h5, raised, bind, Except.bind]
  rfl

theorem readAnswer_fault {W : World} {S : Service} {m : Method} {env h hv b f c msg a : Val}
    (h1 : env.getA py"Header" = .ok h) (h2 : answerHeader W S m h = .ok hv) (h3 : env.getA py"Body" = .ok b)
    (h4 : b.getA py"Fault" = .ok f) (h5 : f.isNone = false) (h6 : faultParts S.version f = .ok (c, msg, a)) :
    readAnswer W S m env = .error (.fault c msg a) := by
  unfold readAnswer
  simp only [h1, h2, h3, h4, h5, h6, raised, bind, Except.bind]
  rfl

/-- The client reads the body of answers as instances of the class: by the declared element or by the class itself. -/
def ReadsAs (W : World) (S : Service) (m : Method) (c : ClsId) : Prop :=
  m.output = .cls c ∨ ∃ n e, m.output = .name n ∧ S.findElement W n = .ok (some e) ∧ e.type = .complex c

/-- Reading an answer. -/
theorem answer_read {W : World} {S : Service} {m : Method} {tag : Str} {c : ClsId} (hD : 4 ≤ W.depth)
    (hsane : (W.table S).Sane) (hm : tag ≠ py"message") (hF : tag ≠ py"Fault") (hout : ReadsAs W S m c)
    {fs : List (Str × Val)} {x : Option Xml} {header : Val} {doc : Xml}
    (hs : Survives (W.table S) W.depth (.complex c) (.inst c fs x))
    (hh : HeaderSurvives (W.table S) W.depth m.outputHeader header)
    (hdoc : responseXml S.version (W.table S) W.depth tag (.inst c fs x) header = .ok doc) (ht : Travels W doc) :
    ∃ w hv, w.Same (.inst c fs x) ∧ hv.Same header ∧
      handleResponse W S m (W.write doc) = .ok (mkResponse (.val w) hv) := by
  obtain ⟨k, hk⟩ := world_depth hD
  obtain ⟨doc', hr, hb⟩ := ht
  unfold World.table at hs hh hdoc
  rw [hk] at hs hh hdoc
  obtain ⟨hdr, y, w, hp, hn, hw, hsame, hhd⟩ := message_back hsane hs hh hm hF hdoc hb
  obtain ⟨body, hbk, hpe⟩ := parse_plain (v := S.version) (U := W.user) (k := k) hp
  have hbody : ∀ bfs, answerBody W S m (.inst cBody bfs (some body)) = .ok w := by
    intro bfs
    unfold answerBody
    rcases hout with ho | ⟨n, e, ho, he, het⟩
    · rw [ho]
      simp only
      unfold bodyParseAs bodyContent Val.element
      simp only [Except_ok_bind, hbk, World.table, hk, hw]
    · rw [ho]
      simp only [he, Except_ok_bind, optE, het]
      unfold bodyParseAs bodyContent Val.element
      simp only [Except_ok_bind, hbk, World.table, hk, hw]
  have hhead : ∃ hv, hv.Same header ∧ answerHeader W S m (headerVal hdr) = .ok hv := by
    rcases hhd with ⟨rfl, rfl⟩ | ⟨hx, cx, wh, rfl, hcx, hwh, hsh⟩
    · refine ⟨Val.none, rfl, ?_⟩
      unfold answerHeader
      cases m.outputHeader <;> rfl
    · refine ⟨wh, hsh, ?_⟩
      unfold answerHeader headerVal
      rw [hcx]
      simp only [Val.isNone, Bool.false_eq_true, if_false, headerParseAs, Val.element, Except_ok_bind, World.table, hk, hwh]
  obtain ⟨hv, hvs, hah⟩ := hhead
  refine ⟨w, hv, hsame, hvs, ?_⟩
  unfold handleResponse
  rw [hr]
  simp only [World.table, hk, hpe]
  exact readAnswer_ok (env := .inst cEnvelope [(py"Header", headerVal hdr), (py"Body",
      .inst cBody [(py"message", Val.none), (py"Fault", Val.none)] (some body))] (some doc'))
    (b := .inst cBody [(py"message", Val.none), (py"Fault", Val.none)] (some body)) rfl hah rfl rfl (hbody _)

/-- Reading an answer of the dispatcher. -/
theorem answer_back {W : World} {d : DispId} {m : MethodId} {tin tout : Str} {cin cout : ClsId}
    (R : Serves W d m tin tout cin cout) {fs : List (Str × Val)} {x : Option Xml} {header : Val} {doc : Xml}
    (hs : Survives (W.table (W.disp d).service) W.depth (.complex cout) (.inst cout fs x))
    (hh : HeaderSurvives (W.table (W.disp d).service) W.depth (W.method m).outputHeader header)
    (hdoc : responseXml (W.disp d).service.version (W.table (W.disp d).service) W.depth tout (.inst cout fs x) header = .ok doc)
    (ht : Travels W doc) :
    ∃ w hv, w.Same (.inst cout fs x) ∧ hv.Same header ∧
      handleResponse W (W.disp d).service (W.method m) (W.write doc) = .ok (mkResponse (.val w) hv) := by
  obtain ⟨e, he, het⟩ := R.outputType
  exact answer_read R.depth R.sane R.outputName.1 R.outputName.2 (.inr ⟨tout, e, R.output, he, het⟩) hs hh hdoc ht

/-- **C52 (client alone).** Whoever sends an answer with an object of the class the client expects - declared by an
element or given as a class, under any element name but 'message' and 'Fault' - makes the client return a response with
the same fields in object and header. -/
theorem C52_client (W : World) (S : Service) (m : Method) (tag : Str) (c : ClsId) (hD : 4 ≤ W.depth)
    (hsane : (W.table S).Sane) (hm : tag ≠ py"message") (hF : tag ≠ py"Fault")
    (hout : m.output = .cls c ∨ ∃ n e, m.output = .name n ∧ S.findElement W n = .ok (some e) ∧ e.type = .complex c)
    (fs : List (Str × Val)) (x : Option Xml) (header : Val) (doc : Xml)
    (hs : Survives (W.table S) W.depth (.complex c) (.inst c fs x))
    (hh : HeaderSurvives (W.table S) W.depth m.outputHeader header)
    (hdoc : responseXml S.version (W.table S) W.depth tag (.inst c fs x) header = .ok doc) (ht : Travels W doc) :
    ∃ w hv, w.Same (.inst c fs x) ∧ hv.Same header ∧
      handleResponse W S m (W.write doc) = .ok (mkResponse (.val w) hv) :=
  answer_read hD hsane hm hF hout hs hh hdoc ht

/-- **C52 (class).** When the method's input is a class rather than an element name, the client's element has the name of
the parameter's class with the first letter in lower case, and is otherwise the same document. -/
theorem C52_class (W : World) (S : Service) (m : Method) (c : ClsId) (h : m.input = .cls c) (c' : ClsId)
    (fs : List (Str × Val)) (x : Option Xml) (header : Val) (a : Char) (name : Str)
    (hn : (W.table S c').name = a :: name) (hq : a :: name ≠ py"QName") :
    callDoc W S m (.inst c' fs x) header = callDoc W S { m with input := .name (lowerC a :: name) } (.inst c' fs x) header := by
  unfold callDoc callTag
  rw [h]
  simp only [Val.className, hn, uncapitalize, if_neg hq]

/-- **C52 (answer), C54.** If middlewares and method produce a response with an object and a header, the content of the
dispatcher's answer makes the client return a response with the same fields in object and header. -/
theorem C52_answer (W : World) (d : DispId) (m : MethodId) (tin tout : Str) (cin cout : ClsId)
    (R : Serves W d m tin tout cin cout) (r : ReqId) (s : State) (q : Req) (fs : List (Str × Val)) (x : Option Xml)
    (resp : Response) (doc : Xml) (hq : s.reqs[r]? = some q) (hp : IsPost q)
    (hret : (inner W d r q s).1 = .ok (.response resp)) (hbody : resp.soapBody = .val (.inst cout fs x))
    (hmeth : ∀ q', (inner W d r q s).2.reqs[r]? = some q' → q'.method = some m)
    (hs : Survives (W.table (W.disp d).service) W.depth (.complex cout) (.inst cout fs x))
    (hh : HeaderSurvives (W.table (W.disp d).service) W.depth (W.method m).outputHeader resp.soapHeader)
    (hdoc : responseXml (W.disp d).service.version (W.table (W.disp d).service) W.depth tout (.inst cout fs x)
      resp.soapHeader = .ok doc) (ht : Travels W doc) :
    ∃ answer w hv, outcome (dispatch W d r) s = .ok answer ∧ answer.content = .bytes (W.write doc) ∧
      answer.status = resp.status ∧
      handleResponse W (W.disp d).service (W.method m) (W.write doc) = .ok (mkResponse (.val w) hv) ∧
      w.Same (.inst cout fs x) ∧ hv.Same resp.soapHeader := by
  obtain ⟨w, hv, h1, h2, h3⟩ := answer_back R hs hh hdoc ht
  obtain ⟨q', hq'⟩ := inner_req (W := W) (d := d) hq
  have hfin : finishResponse W (W.disp d) q'.method resp = .ok { resp with
      httpHeaders := Dict.set resp.httpHeaders py"Content-Type" (W.disp d).service.version.contentType,
      content := .bytes (W.write doc) } := by
    unfold finishResponse
    simp only [hbody, hmeth q' hq', answerTag, R.output, Except_ok_bind, hdoc]
  have ho : catchSoapError (inner W d r q s).1 = .ok resp := by rw [hret]; rfl
  have hdis : outcome (dispatch W d r) s = .ok { resp with
      httpHeaders := Dict.set resp.httpHeaders py"Content-Type" (W.disp d).service.version.contentType,
      content := .bytes (W.write doc) } := by
    rw [outcome, dispatch_inner hq hp R.requestHook, afterChain_eq R.responseHook ho hq' hfin]
  exact ⟨_, w, hv, hdis, rfl, rfl, h3, h1, h2⟩

theorem optE_ok_iff {α : Type} {e : Exn} {o : Option α} {a : α} : optE e o = .ok a ↔ o = some a := by
  cases o <;> simp [optE]

theorem same_none {v : Val} (h : v.Same Val.none) : v = Val.none := by
  unfold Val.Same at h
  cases v with
  | atom a => simpa [Val.eraseWith] using h
  | nil => simp [Val.eraseWith] at h
  | list t is => simp [Val.eraseWith] at h
  | inst c fs x => simp [Val.eraseWith] at h

/-- `get_method` finds the first method with the name. -/
theorem getMethod_iff {W : World} {S : Service} {op : Str} {m : MethodId} :
    S.getMethod W op = .ok m ↔ First (fun m => (W.method m).operationName = op) S.methods m := by
  unfold Service.getMethod
  rw [optE_ok_iff]
  constructor
  · intro h
    obtain ⟨pre, post, h1, h2⟩ := (List.find?_eq_some_iff_append.1 h).2
    exact ⟨pre, post, h1, by simpa using (List.find?_eq_some_iff_append.1 h).1, fun b hb => by simpa using h2 b hb⟩
  · rintro ⟨pre, post, h1, h2, h3⟩
    exact List.find?_eq_some_iff_append.2 ⟨by simpa using h2, pre, post, h1, fun b hb => by simpa using h3 b hb⟩

/-- **C52 (server alone).** The server answers the document of a parameter object that survives with the document of the
value of `g` for a parameter with the same fields, where `g` is what the method computes. -/
theorem C52_served (W : World) (d : DispId) (m : MethodId) (tin tout : Str) (cin cout : ClsId)
    (R : Serves W d m tin tout cin cout)
    (g : Val → Val) (hg : (W.method m).function = some fun _ p => .ret (.obj (.val (g p))))
    (s : State) (e : Env) (henv : e py"REQUEST_METHOD" = some py"POST") (hm : Handles W (W.disp d).service e tin m)
    (fs : List (Str × Val)) (x : Option Xml) (doc : Xml)
    (hs : Survives (W.table (W.disp d).service) W.depth (.complex cin) (.inst cin fs x))
    (hdoc : responseXml (W.disp d).service.version (W.table (W.disp d).service) W.depth tin (.inst cin fs x) Val.none =
      .ok doc) (ht : Travels W doc)
    (hval : ∀ doc' y, W.read (W.write doc) = some doc' → PlainMessage doc' none y → (W.disp d).validator y = .ok ())
    (hres : ∀ p, p.Same (.inst cin fs x) → ∃ fs' x' doc', g p = .inst cout fs' x' ∧
      Survives (W.table (W.disp d).service) W.depth (.complex cout) (.inst cout fs' x') ∧
      responseXml (W.disp d).service.version (W.table (W.disp d).service) W.depth tout (.inst cout fs' x') Val.none =
        .ok doc' ∧ Travels W doc') :
    ∃ p fs' x' doc', p.Same (.inst cin fs x) ∧ g p = .inst cout fs' x' ∧
      Survives (W.table (W.disp d).service) W.depth (.complex cout) (.inst cout fs' x') ∧
      responseXml (W.disp d).service.version (W.table (W.disp d).service) W.depth tout (.inst cout fs' x') Val.none =
        .ok doc' ∧ Travels W doc' ∧ served W d s e (W.write doc) = .ok (W.write doc') := by
  have hpost : IsPost { environ := e, content := W.write doc } := by
    exact henv
  have hq : ({ s with reqs := s.reqs ++ [{ environ := e, content := W.write doc }] } : State).reqs[s.reqs.length]? =
      some { environ := e, content := W.write doc } := by simp
  generalize hs1 : ({ s with reqs := s.reqs ++ [{ environ := e, content := W.write doc }] } : State) = s1 at hq
  have hq2 := begin_req (d := d) hq
  have hnoHeader : ∀ doc' hdr y, W.read (W.write doc) = some doc' → PlainMessage doc' hdr y → hdr = none := by
    intro doc' hdr y hr hp
    obtain ⟨doc2, hr2, hb⟩ := ht
    rw [hr] at hr2
    injection hr2 with hr2; subst hr2
    obtain ⟨k, hk⟩ := world_depth R.depth
    have hd2 := hdoc
    rw [World.table, hk] at hd2
    obtain ⟨_, o, hdr', _, _, hh, rfl⟩ := responseXml_shape (.inl rfl) hd2
    rcases hh with ⟨_, rfl⟩ | ⟨_, _, _, _, hh, _⟩
    · cases hb with
      | elem _ hk =>
        cases hk with
        | cons _ hk =>
          cases hk
          obtain ⟨_, _, _, _, _, _, _, hdocq, _⟩ := hp
          injection hdocq with _ _ _ hl
          cases hdr with
          | none => rfl
          | some h => simp at hl
    · cases hh
  obtain ⟨hv, p, h1, h2, hcall⟩ := request_call R hq2 rfl hm hg hs (.inl rfl) hdoc rfl ht (by
    intro doc' hdr y hr hp
    have hnone := hnoHeader doc' hdr y hr hp
    subst hnone
    exact ⟨hval doc' y hr hp, by simp⟩)
  obtain ⟨fs', x', doc', hgp, hsv, hrx, htr⟩ := hres p h1
  have hinner : inner W d s.reqs.length { environ := e, content := W.write doc } s1 =
      (.ok (.response (mkResponse (.val (g p)))), ⟨(s1.begin d s.reqs.length { environ := e, content := W.write doc }).reqs.set s.reqs.length
        { environ := e, content := W.write doc, dispatcher := some d, method := some m, soapHeader := hv, soapBody := p },
        (s1.begin d s.reqs.length { environ := e, content := W.write doc }).trace ++ [.method m s.reqs.length
          { environ := e, content := W.write doc, dispatcher := some d, method := some m, soapHeader := hv, soapBody := p } p]⟩) := by
    unfold inner
    rw [R.middlewares]
    exact hcall
  have hlt : s.reqs.length < (s1.begin d s.reqs.length { environ := e, content := W.write doc }).reqs.length :=
    (List.getElem?_eq_some_iff.1 hq2).1
  obtain ⟨answer, w, hv', ha1, ha2, _, ha4, ha5, ha6⟩ := C52_answer W d m tin tout cin cout R s.reqs.length s1 _ fs' x'
    (mkResponse (.val (g p))) doc' hq hpost (by rw [hinner]) (by rw [← hgp]; rfl) (by
      intro q' hq'
      rw [hinner] at hq'
      simp only [List.getElem?_set_self hlt] at hq'
      injection hq' with hq'; rw [← hq']) hsv (.inl rfl) hrx htr
  refine ⟨p, fs', x', doc', h1, hgp, hsv, hrx, htr, ?_⟩
  unfold served
  rw [hs1, ha1]
  simp only [ha2]

/-- **C52.** From end to end: a client calling an operation whose method computes `g` gets, for every parameter object
that survives, a response with the value of `g` for a parameter with the same fields - provided the two documents
survive transport and the request is valid. -/
theorem C52_call (W : World) (d : DispId) (m : MethodId) (op tin tout : Str) (cin cout : ClsId)
    (R : Serves W d m tin tout cin cout)
    (hop : First (fun m => (W.method m).operationName = op) (W.disp d).service.methods m)
    (g : Val → Val) (hg : (W.method m).function = some fun _ p => .ret (.obj (.val (g p))))
    (s : State) (env : Dict Str → Env) (henv : ∀ hs, env hs py"REQUEST_METHOD" = some py"POST")
    (hm : Handles W (W.disp d).service
      (env ((W.disp d).service.version.requestHeaders (W.method m).soapAction)) tin m)
    (fs : List (Str × Val)) (x : Option Xml) (doc : Xml)
    (hs : Survives (W.table (W.disp d).service) W.depth (.complex cin) (.inst cin fs x))
    (hdoc : callDoc W (W.disp d).service (W.method m) (.inst cin fs x) Val.none = .ok doc) (ht : Travels W doc)
    (hval : ∀ doc' y, W.read (W.write doc) = some doc' → PlainMessage doc' none y → (W.disp d).validator y = .ok ())
    (hres : ∀ p, p.Same (.inst cin fs x) → ∃ fs' x' doc', g p = .inst cout fs' x' ∧
      Survives (W.table (W.disp d).service) W.depth (.complex cout) (.inst cout fs' x') ∧
      responseXml (W.disp d).service.version (W.table (W.disp d).service) W.depth tout (.inst cout fs' x') Val.none =
        .ok doc' ∧ Travels W doc') :
    ∃ p w, p.Same (.inst cin fs x) ∧ w.Same (g p) ∧
      stubCall W (W.disp d).service (fun hs content => served W d s (env hs) content) op (.inst cin fs x) Val.none =
        .ok (mkResponse (.val w)) := by
  have hmeth := getMethod_iff.2 hop
  have hdoc' : responseXml (W.disp d).service.version (W.table (W.disp d).service) W.depth tin (.inst cin fs x) Val.none =
      .ok doc := by
    have h := hdoc
    unfold callDoc callTag at h
    rw [R.input] at h
    exact h
  obtain ⟨p, fs', x', doc', h1, h2, h3, h4, h5, h6⟩ := C52_served W d m tin tout cin cout R g hg s _ (henv _) hm fs x doc hs
    hdoc' ht hval hres
  obtain ⟨w, hv, hw1, hw2, hw3⟩ := answer_back R h3 (.inl rfl) h4 h5
  refine ⟨p, w, h1, by rw [h2]; exact hw1, ?_⟩
  unfold stubCall
  simp only [hmeth, hdoc, raised, bind, Except.bind, h6]
  rw [hw3, same_none hw2]

/-! ### C53: faults from end to end -/

/-- Reading a fault as a client. -/
theorem fault_read {W : World} {S : Service} {m : Method} {c msg : Str} (hD : 4 ≤ W.depth)
    (ht : Travels W (faultDoc S.version c msg none)) :
    handleResponse W S m (W.write (faultDoc S.version c msg none)) =
      .error (.fault (orNone (some c)) (orNone (some msg)) Val.none) := by
  obtain ⟨k, hk⟩ := world_depth hD
  obtain ⟨doc', hr, hb⟩ := ht
  obtain ⟨bx, fv, h1, h2, h3⟩ := fault_back (U := W.user) (k := k) hb
  unfold handleResponse
  rw [hr]
  simp only [World.table, hk, h1]
  refine readAnswer_fault (env := .inst cEnvelope [(py"Header", Val.none), (py"Body",
      .inst cBody [(py"message", Val.none), (py"Fault", fv)] bx)] (some doc'))
    (b := .inst cBody [(py"message", Val.none), (py"Fault", fv)] bx) (hv := Val.none) rfl ?_ rfl rfl h2 h3
  unfold answerHeader
  cases m.outputHeader <;> rfl

/-- **C53.** If middlewares or method end with a SOAPError, raised or returned, a client calling the operation gets a
SOAPError with the same code and message (empty ones become None) and without actor, whatever the actor was. -/
theorem C53_fault (W : World) (d : DispId) (m : MethodId) (op : Str) (param header : Val) (doc : Xml) (c msg : Str)
    (hop : First (fun m => (W.method m).operationName = op) (W.disp d).service.methods m)
    (h1 : (W.disp d).hooks.get? py"soap-request" = none) (h2 : (W.disp d).hooks.get? py"soap-response" = none)
    (hD : 4 ≤ W.depth) (s : State) (env : Dict Str → Env) (henv : ∀ hs, env hs py"REQUEST_METHOD" = some py"POST")
    (hdoc : callDoc W (W.disp d).service (W.method m) param header = .ok doc)
    (q : Req) (hq : q = { environ := env ((W.disp d).service.version.requestHeaders (W.method m).soapAction),
                          content := W.write doc })
    (hf : IsFault (inner W d s.reqs.length q { s with reqs := s.reqs ++ [q] }).1 c msg Val.none)
    (hc : XmlOk c) (hm : XmlOk msg) (ht : Travels W (faultDoc (W.disp d).service.version c msg none)) :
    stubCall W (W.disp d).service (fun hs content => served W d s (env hs) content) op param header =
      .error (.fault (orNone (some c)) (orNone (some msg)) Val.none) := by
  have hmeth := getMethod_iff.2 hop
  subst hq
  generalize he : env ((W.disp d).service.version.requestHeaders (W.method m).soapAction) = e at hf
  have hpost : IsPost { environ := e, content := W.write doc } := by
    show e py"REQUEST_METHOD" = _
    rw [← he]; exact henv _
  obtain ⟨resp, hd, _, hcont, _⟩ := fault_answer (by simp) hpost h1 h2 hD hf hc hm
  have hserved : served W d s e (W.write doc) = .ok (W.write (faultDoc (W.disp d).service.version c msg none)) := by
    unfold served outcome
    rw [hd]
    simp only [hcont]
  unfold stubCall
  simp only [hmeth, hdoc, raised, bind, Except.bind, he, hserved]
  exact fault_read hD ht

/-- **C53 (method).** In particular, when the method raises the SOAPError itself on being called. -/
theorem C53_method (W : World) (d : DispId) (m : MethodId) (op tin tout : Str) (cin cout : ClsId)
    (R : Serves W d m tin tout cin cout)
    (hop : First (fun m => (W.method m).operationName = op) (W.disp d).service.methods m)
    (f : ReqId → Val → Prog Empty Ret) (hf : (W.method m).function = some f)
    (s : State) (env : Dict Str → Env) (henv : ∀ hs, env hs py"REQUEST_METHOD" = some py"POST")
    (hm : Handles W (W.disp d).service
      (env ((W.disp d).service.version.requestHeaders (W.method m).soapAction)) tin m)
    (fs : List (Str × Val)) (x : Option Xml) (header : Val) (doc : Xml)
    (hs : Survives (W.table (W.disp d).service) W.depth (.complex cin) (.inst cin fs x))
    (hh : HeaderSurvives (W.table (W.disp d).service) W.depth (headerClass (W.disp d).service (W.method m)) header)
    (hdoc : callDoc W (W.disp d).service (W.method m) (.inst cin fs x) header = .ok doc) (ht : Travels W doc)
    (hval : ∀ doc' hdr y, W.read (W.write doc) = some doc' → PlainMessage doc' hdr y →
      (W.disp d).validator y = .ok () ∧ ∀ h, hdr = some h → ∀ z ∈ h.kids, HeaderOk W (W.disp d) z)
    (c msg : Str) (actor : Option Str)
    (hraise : ∀ r p, p.Same (.inst cin fs x) → f r p = .raise (.soapError c msg actor))
    (hc : XmlOk c) (hmsg : XmlOk msg) (htf : Travels W (faultDoc (W.disp d).service.version c msg none)) :
    stubCall W (W.disp d).service (fun hs content => served W d s (env hs) content) op (.inst cin fs x) header =
      .error (.fault (orNone (some c)) (orNone (some msg)) Val.none) := by
  refine C53_fault W d m op _ header doc c msg hop R.requestHook R.responseHook R.depth s env henv hdoc _ rfl ?_ hc hmsg htf
  have hdoc' : responseXml (W.disp d).service.version (W.table (W.disp d).service) W.depth tin (.inst cin fs x) header =
      .ok doc := by
    have h := hdoc
    unfold callDoc callTag at h
    rw [R.input] at h
    exact h
  generalize hq : Req.mk (env ((W.disp d).service.version.requestHeaders (W.method m).soapAction)) (W.write doc) .. = q
  have hc1 : q.content = W.write doc := by rw [← hq]
  have hq1 : ({ s with reqs := s.reqs ++ [q] } : State).reqs[s.reqs.length]? = some q := by simp
  have hq2 := begin_req (d := d) hq1
  obtain ⟨hv, p, h1, h2, hcall⟩ := request_call R hq2 rfl (by rw [← hq]; exact hm) hf hs hh hdoc' hc1 ht
    (by rw [← hq]; exact hval)
  unfold inner
  rw [R.middlewares]
  simp only [chain]
  rw [hcall, hraise _ p h1]
  exact .raised

/-! ### C54: headers -/

theorem mapE_mem {α β : Type} {f : α → Except Exn β} {l : List α} {bs : List β} (h : mapE f l = .ok bs) {b : β}
    (hb : b ∈ bs) : ∃ a ∈ l, f a = .ok b := by
  induction l generalizing bs with
  | nil => injection h with h; subst h; cases hb
  | cons a l ih =>
    obtain ⟨b', hb', h⟩ := bind_eq_ok.1 h
    obtain ⟨bs', hbs', h⟩ := bind_eq_ok.1 h
    injection h with h; subst h
    rcases List.mem_cons.1 hb with rfl | hb
    · exact ⟨a, by simp, hb'⟩
    · obtain ⟨a', ha', h⟩ := ih hbs' hb
      exact ⟨a', by simp [ha'], h⟩

theorem renderChild_tag {rc : RenderCls} {f : Field} {loc : Str} {v : Val} {ns : Option Str} {q : Bool} {k : Xml}
    (h : renderChild rc f loc v ns q = .ok k) : ∃ a t ks, k = .elem (childTag f loc ns q) a t ks := by
  unfold renderChild at h
  split at h
  · injection h with h; exact ⟨_, _, _, h.symm⟩
  · obtain ⟨p, _, h⟩ := bind_eq_ok.1 h
    injection h with h; exact ⟨_, _, _, h.symm⟩

/-- The children written for elements and lists of a class. -/
theorem renderFields_tags {T : Table} {rc : RenderCls} {vals : List (Str × Val)} {ns : Option Str} {q : Bool} :
    ∀ (fs : List Field) (o : Out), (∀ f ∈ fs, f.kind = .element ∨ f.kind = .list ∨ f.kind = .attribute) →
      renderFields T rc vals ns q fs = .ok o →
      ∀ k ∈ o.kids, ∃ f ∈ fs, ∃ a t ks, k = .elem (childTag f f.tag ns q) a t ks := by
  intro fs
  induction fs with
  | nil => intro o _ h k hk; injection h with h; subst h; cases hk
  | cons f fs ih =>
    intro o hk h k hkm
    obtain ⟨v, _, h⟩ := bind_eq_ok.1 h
    obtain ⟨o1, ho1, h⟩ := bind_eq_ok.1 h
    obtain ⟨os, hos, h⟩ := bind_eq_ok.1 h
    injection h with h; subst h
    rcases List.mem_append.1 hkm with hkm | hkm
    · refine ⟨f, by simp, ?_⟩
      unfold renderField at ho1
      rcases hk f (by simp) with e | e | e
      · rw [e] at ho1
        simp only at ho1
        split at ho1
        · injection ho1 with ho1; subst ho1; cases hkm
        · obtain ⟨k', hk', ho1⟩ := bind_eq_ok.1 ho1
          injection ho1 with ho1; subst ho1
          simp only [List.mem_cons, List.not_mem_nil, or_false] at hkm
          subst hkm
          exact renderChild_tag hk'
      · rw [e] at ho1
        simp only [renderList] at ho1
        obtain ⟨items, _, ho1⟩ := bind_eq_ok.1 ho1
        obtain ⟨_, _, ho1⟩ := bind_eq_ok.1 ho1
        obtain ⟨_, _, ho1⟩ := bind_eq_ok.1 ho1
        obtain ⟨ks, hks, ho1⟩ := bind_eq_ok.1 ho1
        injection ho1 with ho1; subst ho1
        obtain ⟨v, _, hv⟩ := mapE_mem hks hkm
        exact renderChild_tag hv
      · rw [e] at ho1
        simp only [renderAttr] at ho1
        split at ho1
        · split at ho1
          · cases ho1
          · injection ho1 with ho1; subst ho1; cases hkm
        · split at ho1
          · split at ho1
            · injection ho1 with ho1; subst ho1; cases hkm
            · cases ho1
          · split at ho1
            · obtain ⟨_, _, ho1⟩ := bind_eq_ok.1 ho1
              obtain ⟨_, _, ho1⟩ := bind_eq_ok.1 ho1
              injection ho1 with ho1; subst ho1; cases hkm
            · cases ho1
    · obtain ⟨g, hg, h⟩ := ih os (fun g hg => hk g (by simp [hg])) hos k hkm
      exact ⟨g, by simp [hg], h⟩

/-- **C54 (namespaces).** Every child of the Header element a client or server writes for a header object belongs to a
field of its class, and is in the namespace given for that field or else in the envelope namespace - never in the
namespace of the header class's own schema. -/
theorem C54_namespace (v : Version) (U : Table) (D : Nat) (hD : 4 ≤ D) (tag : Str) (c ch : ClsId)
    (fs hfs : List (Str × Val)) (x hx : Option Xml) (doc : Xml)
    (hk : ∀ f ∈ (soapTable v U ch).fields, f.kind = .element ∨ f.kind = .list ∨ f.kind = .attribute)
    (h : responseXml v (soapTable v U) D tag (.inst c fs x) (.inst ch hfs hx) = .ok doc) :
    ∃ header body, doc.kids = [header, body] ∧ header.Named py"Header" ∧ body.Named py"Body" ∧
      ∀ k ∈ header.kids, ∃ f ∈ (soapTable v U ch).fields, ∃ q a t ks, k = .elem q a t ks ∧
        q.loc = f.writtenName ∧
        q.ns = (match f.nspace with | none => some v.envelopeNs | some [] => none | some n => some n) := by
  obtain ⟨k, rfl⟩ : ∃ k, D = k + 4 := ⟨D - 4, by omega⟩
  obtain ⟨s, o, hdr, _, _, hh, rfl⟩ := responseXml_shape (.inr ⟨_, _, _, rfl⟩) h
  rcases hh with ⟨h', _⟩ | ⟨ch', hfs', hx', oh, he, hoh, rfl⟩
  · cases h'
  · injection he with e1 e2 e3
    subst e1 e2 e3
    refine ⟨_, _, rfl, ⟨_, _, _, _, rfl, rfl⟩, ⟨_, _, _, _, rfl, rfl⟩, ?_⟩
    intro y hy
    obtain ⟨f, hf, a, t, ks, rfl⟩ := renderFields_tags _ _ hk hoh y hy
    refine ⟨f, hf, _, a, t, ks, rfl, ?_, ?_⟩
    · rw [← tag_eq]
      unfold childTag QName.mk'
      simp only
      split <;> rfl
    · have hne : v.envelopeNs ≠ [] := by cases v <;> decide
      unfold childTag QName.mk'
      rcases hn : f.nspace with _ | _ | ⟨a, b⟩
      · simp [hne]
      · simp
      · simp

/-! ### Example: a service with a header -/

namespace ExC

def ns : Str := py"urn:x"

/-- Classes 8 (`SayHello`), 9 (`SayHelloResponse`) and 10 (`Auth`, a header). -/
def user : Table
  | 8 => { name := py"SayHello", mro := [8, 0], schema := some ⟨some ns, false⟩, fields := [
      { name := py"name", kind := .element, type := .simple (.string {}) }] }
  | 9 => { name := py"SayHelloResponse", mro := [9, 0], schema := some ⟨some ns, false⟩, fields := [
      { name := py"greeting", kind := .element, type := .simple (.string {}) }] }
  | 10 => { name := py"Auth", mro := [10, 0], schema := some ⟨some ns, false⟩, fields := [
      { name := py"token", kind := .element, type := .simple (.string {}) }] }
  | n => { name := py"Other", mro := [n, 0], fields := [] }

/-- The method greets whoever it is called with. -/
def greet (p : Val) : Val :=
  match p with
  | .inst _ ((_, n) :: _) _ => .inst 9 [(py"greeting", n)] none
  | v => v

def hello : Method where
  operationName := py"SayHello"
  soapAction := py"urn:x/hello"
  input := .name py"sayHello"
  output := .name py"sayHelloResponse"
  inputHeader := some 10
  function := some fun _ p => .ret (.obj (.val (greet p)))

def schema : Schema where
  targetNamespace := ns
  elements := [(py"sayHello", { type := .complex 8 }), (py"sayHelloResponse", { type := .complex 9 })]

def env (ks : List Xml) : Xml := .elem ⟨some Version.soap11.envelopeNs, py"Envelope"⟩ [] none ks
def bodyDoc (x : Xml) : Xml := .elem ⟨some Version.soap11.envelopeNs, py"Body"⟩ [] none [x]
def headerDoc : Xml := .elem ⟨some Version.soap11.envelopeNs, py"Header"⟩ [] none [
  .elem ⟨some Version.soap11.envelopeNs, py"token"⟩ [] (some py"t") []]
def ask : Xml := .elem ⟨some ns, py"sayHello"⟩ [] none [.elem ⟨none, py"name"⟩ [] (some py"Bob") []]
def tell : Xml := .elem ⟨some ns, py"sayHelloResponse"⟩ [] none [.elem ⟨none, py"greeting"⟩ [] (some py"Bob") []]

/-- Writing and reading the documents of the example: as numbers. -/
def write : Xml → Bytes
  | .elem _ _ _ [.elem _ _ _ [.elem ⟨_, n⟩ _ _ _]] =>
    if n = py"sayHello" then [1] else if n = py"sayHelloResponse" then [2] else [3]
  | .elem _ _ _ [_, _] => [4]
  | _ => [0]
def read : Bytes → Option Xml
  | [1] => some (env [bodyDoc ask])
  | [2] => some (env [bodyDoc tell])
  | [3] => some (faultDoc .soap11 py"Server" py"sorry" none)
  | [4] => some (env [headerDoc, bodyDoc ask])
  | _ => none

def world (m : Method := hello) : World where
  user := user
  depth := 10
  method := fun _ => m
  schema := fun _ => schema
  disp := fun _ => { service := { schemas := [0], methods := [0] }, strict := false, validator := fun _ => .ok (),
                     wsdl := [] }
  read := read
  write := write
  encode := fun s => s.map (·.toNat)
  decode := fun b => .ok (b.map Char.ofNat)
  wsaValid := fun _ => .ok ()
  describe := fun _ => py"invalid"
  traceback := fun _ => []

theorem sane : (soapTable .soap11 user).Sane where
  names := by
    intro c
    match c with
    | 0 | 1 | 2 | 3 | 4 | 5 | 6 | 7 | 8 | 9 | 10 => decide
    | n + 11 => exact List.Pairwise.nil
  self := by
    intro c
    match c with
    | 0 | 1 | 2 | 3 | 4 | 5 | 6 | 7 | 8 | 9 | 10 => decide
    | n + 11 => simp [soapTable, user]
  defaults := by
    intro c f c' hf ht
    refine .inr ?_
    have : f.default = Val.none := by
      match c with
      | 0 | 1 | 2 | 3 | 4 | 5 | 6 | 7 | 8 | 9 | 10 =>
        simp [soapTable, user, Version.faultFields] at hf
        try (first | subst hf; rfl | rcases hf with rfl | rfl <;> rfl | rcases hf with rfl | rfl | rfl <;> rfl)
      | n + 11 => simp [soapTable, user] at hf
    rw [this]; exact .none

theorem unambiguous (c : ClsId) (hc : c = 8 ∨ c = 9 ∨ c = 10) : Unambiguous (soapTable .soap11 user) c := by
  intro n
  match n with
  | 0 => exact .nil
  | n + 1 => rcases hc with rfl | rfl | rfl <;> exact .cons (by simp) .nil

def call : Val := .inst 8 [(py"name", .atom (.str py"Bob"))] none
def auth : Val := .inst 10 [(py"token", .atom (.str py"t"))] none

theorem survives (c : ClsId) (n t : Str) (x : Option Xml) (hc : c = 8 ∧ n = py"name" ∨ c = 9 ∧ n = py"greeting" ∨ c = 10 ∧ n = py"token")
    (ht : t ≠ []) : Survives (soapTable .soap11 user) 10 (.complex c) (.inst c [(n, .atom (.str t))] x) := by
  rcases hc with ⟨rfl, rfl⟩ | ⟨rfl, rfl⟩ | ⟨rfl, rfl⟩
  all_goals
    refine .inst rfl rfl (unambiguous _ (by simp)) (i := _) rfl rfl ?_
    intro f v hf hv
    simp only [soapTable, user, List.mem_cons, List.not_mem_nil, or_false] at hf
    subst hf
    injection hv with hv; subst hv
    exact .element rfl (by simp) (C25_strings _ _ _ _ ht rfl)

theorem serves : Serves (world) 0 0 py"sayHello" py"sayHelloResponse" 8 9 :=
  ⟨by decide, sane, rfl, rfl, rfl, rfl, ⟨_, rfl, rfl⟩, by decide, rfl, ⟨_, rfl, rfl⟩, by decide⟩

theorem text_back (q : QName) (c : Char) (cs : Str) : Back (.elem q [] (some (c :: cs)) []) (.elem q [] (some (c :: cs)) []) :=
  .elem rfl .nil
theorem nest_back {q : QName} {k : Xml} {ks : List Xml} (h : All2 Back (k :: ks) (k :: ks)) :
    Back (.elem q [] none (k :: ks)) (.elem q [] none (k :: ks)) :=
  .elem (fun h => absurd rfl h) h

def environ (headers : Dict Str) : Env :=
  Dict.env ((py"REQUEST_METHOD", py"POST") :: headers.map fun h => (cgiVariable h.1, h.2))

/-- The greeting can be written, read back, and travels. -/
theorem greets (p : Val) (hp : p.Same call) : ∃ fs' x' doc', greet p = .inst 9 fs' x' ∧
    Survives (soapTable .soap11 user) 10 (.complex 9) (.inst 9 fs' x') ∧
    responseXml .soap11 (soapTable .soap11 user) 10 py"sayHelloResponse" (.inst 9 fs' x') Val.none = .ok doc' ∧
    Travels world doc' := by
  unfold Val.Same call at hp
  cases p with
  | inst c fs x =>
    match fs with
    | [] => simp [Val.eraseWith, eraseFields] at hp
    | [(n, v)] =>
      simp only [Val.eraseWith, eraseFields, erasePair, Val.inst.injEq, List.cons.injEq, Prod.mk.injEq, and_true] at hp
      obtain ⟨rfl, rfl, hv⟩ := hp
      cases v with
      | atom a =>
        simp only [Val.eraseWith] at hv
        injection hv with hv
        subst hv
        exact ⟨_, none, env [bodyDoc tell], rfl, survives 9 _ _ none (.inr (.inl ⟨rfl, rfl⟩)) (by decide), rfl,
          _, rfl, nest_back (.cons (nest_back (.cons (nest_back (.cons (text_back _ _ _) .nil)) .nil)) .nil)⟩
      | _ => simp [Val.eraseWith] at hv
    | _ :: _ :: _ => simp [Val.eraseWith, eraseFields] at hp
  | _ => simp [Val.eraseWith] at hp

/-- A call of the stub is answered with the greeting of whoever was sent. -/
example : ∃ p w, p.Same call ∧ w.Same (greet p) ∧
    stubCall world (world.disp 0).service (fun hs content => served world 0 {} (environ hs) content) py"SayHello" call
      Val.none = .ok (mkResponse (.val w)) := by
  refine C52_call world 0 0 py"SayHello" _ _ 8 9 serves ⟨[], [], rfl, rfl, by simp⟩ greet rfl {} environ (fun _ => rfl)
    (.input (fun a h => ?_) ⟨[], [], rfl, rfl, by simp⟩) _ none (env [bodyDoc ask])
    (survives 8 _ _ none (.inl ⟨rfl, rfl⟩) (by decide)) rfl
    ⟨_, rfl, nest_back (.cons (nest_back (.cons (nest_back (.cons (text_back _ _ _) .nil)) .nil)) .nil)⟩
    (fun _ _ _ _ => rfl) ?_
  · have : Version.determineAction .soap11 (environ (Version.soap11.requestHeaders py"urn:x/hello")) = none := by
      decide +kernel
    exact absurd (this.symm.trans h.1) (by simp)
  · exact greets

/-- With a header, which the method finds in the request. -/
example : ∃ q' p, (happened (dispatch world 0 0) { reqs := [ { environ := environ [], content := [4] } ] }).head? =
    some (.method 0 0 q' p) ∧ p.Same call ∧ q'.soapBody = p ∧ q'.soapHeader.Same auth ∧ q'.method = some 0 := by
  refine C52_request world 0 0 _ _ 8 9 serves 0 _ _ _ none auth (env [headerDoc, bodyDoc ask]) _ rfl rfl
    (.input (fun a h => ?_) ⟨[], [], rfl, rfl, by simp⟩) rfl (survives 8 _ _ none (.inl ⟨rfl, rfl⟩) (by decide))
    (.inr ⟨10, _, none, rfl, rfl, survives 10 _ _ none (.inr (.inr ⟨rfl, rfl⟩)) (by decide)⟩) rfl rfl
    ⟨_, rfl, nest_back (.cons (nest_back (.cons (text_back _ _ _) .nil))
      (.cons (nest_back (.cons (nest_back (.cons (text_back _ _ _) .nil)) .nil)) .nil))⟩ ?_
  · have : Version.determineAction .soap11 (environ []) = none := by decide +kernel
    exact absurd (this.symm.trans h.1) (by simp)
  · intro doc' hdr y hd hp
    injection hd with hd
    subst hd
    refine ⟨rfl, fun h hh z hz => ?_⟩
    obtain ⟨q, a, t, qb, ab, tb, n, he, _⟩ := hp
    subst hh
    injection he with _ _ _ he
    injection he with he
    subst he
    simp only [headerDoc, Xml.kids, List.mem_cons, List.not_mem_nil, or_false] at hz
    subst hz
    exact ⟨_, _, _, _, rfl, fun h => absurd h (by decide), fun _ => .inl rfl⟩

def grumpy : Method := { hello with function := some fun _ _ => .raise (.soapError py"Server" py"sorry" none) }

/-- A fault raised by the method reaches the caller. -/
example : stubCall (world grumpy) (world.disp 0).service
    (fun hs content => served (world grumpy) 0 {} (environ hs) content) py"SayHello" call Val.none =
    .error (.fault (.atom (.str py"Server")) (.atom (.str py"sorry")) Val.none) := by
  refine C53_fault _ 0 0 _ _ _ (env [bodyDoc ask]) py"Server" py"sorry" ⟨[], [], rfl, rfl, by simp⟩ rfl rfl (by decide) {} environ
    (fun _ => rfl) rfl _ rfl ?_ (by unfold XmlOk; decide) (by unfold XmlOk; decide) ⟨_, rfl, ?_⟩
  · exact .raised
  · exact nest_back (.cons (nest_back (.cons (nest_back (.cons (text_back _ _ _) (.cons (text_back _ _ _) .nil))) .nil)) .nil)

/-- An error is read back with its code, message and actor; an empty message as None. -/
example : ∃ doc, errorXml .soap11 (soapTable .soap11 user) 10 py"Client" py"" (some py"me") Val.none = .ok doc ∧
    ∀ doc', Back doc doc' → ∃ e body fault, parseEnvelope (soapTable .soap11 user) 10 doc' = .ok e ∧
      e.getA py"Body" = .ok body ∧ body.getA py"Fault" = .ok fault ∧ fault.isNone = false ∧
      faultParts .soap11 fault = .ok (.atom (.str py"Client"), Val.none, .atom (.str py"me")) :=
  C51_fault .soap11 user 10 (by decide) py"Client" py"" (some py"me") (by unfold XmlOk; decide) (by unfold XmlOk; decide)
    (by intro a h; injection h with h; subst h; unfold XmlOk; decide)

/-- The header of the example: its child has the namespace of the envelope, not the one of its class. -/
example : responseXml .soap11 (soapTable .soap11 user) 10 py"sayHello" call auth = .ok (env [headerDoc, bodyDoc ask]) :=
  rfl

end ExC

end Soapfish
