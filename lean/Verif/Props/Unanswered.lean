import Verif.Props.Calls
/-
Which objects a dispatcher can answer with (C112).
-/
namespace Soapfish

/-- A method or middleware returns an object, alone or in a response with a header. -/
inductive AnswerGiven : Ret → Val → Val → Prop where
  | object {v : Val} : AnswerGiven (.obj (.val v)) v Val.none
  | response {resp : Response} {v : Val} : resp.soapBody = .val v → AnswerGiven (.response resp) v resp.soapHeader

theorem catch_gives {ret : Ret} {v h : Val} (hg : AnswerGiven ret v h) :
    ∃ resp, catchSoapError (.ok ret) = .ok resp ∧ resp.soapBody = .val v ∧ resp.soapHeader = h := by
  cases hg with
  | object => exact ⟨_, rfl, rfl, rfl⟩
  | response hb => exact ⟨_, rfl, hb, rfl⟩

/-- Either a SOAPError or an object, or another exception. -/
theorem outcome_cases (o : Except Exn Ret) : (∃ c m h, IsFault o c m h) ∨ (∃ ret v h, o = .ok ret ∧ AnswerGiven ret v h) ∨
    ∃ e, o = .error e ∧ OtherError e := by
  match o with
  | .error (.soapError c m a) => exact .inl ⟨_, _, _, .raised⟩
  | .ok (.obj (.val v)) => exact .inr (.inl ⟨_, _, _, rfl, .object⟩)
  | .ok (.obj (.error c m a)) => exact .inl ⟨_, _, _, .returned⟩
  | .ok (.response resp) =>
    cases hb : resp.soapBody with
    | val v => exact .inr (.inl ⟨_, _, _, rfl, .response hb⟩)
    | error c m a => exact .inl ⟨_, _, _, .response hb⟩
  | .error e =>
    by_cases h : ∃ c m a, e = .soapError c m a
    · obtain ⟨c, m, a, rfl⟩ := h
      exact .inl ⟨_, _, _, .raised⟩
    · exact .inr (.inr ⟨e, rfl, fun c m a he => h ⟨c, m, a, he⟩⟩)

section
variable (W : World) (d : DispId) (r : ReqId) (s : State) (q q' : Req) (ret : Ret) (v h : Val)
  (hq : s.reqs[r]? = some q) (hp : IsPost q) (h1 : (W.disp d).hooks.get? py"soap-request" = none)
include hq hp h1

theorem nameless_dispatch (hret : (inner W d r q s).1 = .ok ret) (hg : AnswerGiven ret v h)
    (hq' : (inner W d r q s).2.reqs[r]? = some q')
    (hm : ∀ m n, q'.method = some m → (W.method m).output ≠ .name n) :
    dispatch W d r s = (.error .attributeError, (inner W d r q s).2) := by
  obtain ⟨resp, hc, hb, hh⟩ := catch_gives hg
  rw [← hret] at hc
  have hf : finishResponse W (W.disp d) q'.method resp = .error .attributeError := by
    have ht : answerTag W q'.method = .error .attributeError := by
      unfold answerTag
      cases hm' : q'.method with
      | none => rfl
      | some m =>
        simp only
        split
        · exact absurd ‹_› (hm m _ hm')
        · rfl
    unfold finishResponse
    simp only [hb, ht]
    rfl
  rw [dispatch_inner hq hp h1, afterChain_finish_error hc hq' hf]

/-- **C112 (nameless).** When middlewares and method return an object, but the request has no method, or its method's
output is not the name of an element, AttributeError escapes from the dispatcher, whatever the middlewares are. -/
theorem C112_nameless (hret : (inner W d r q s).1 = .ok ret) (hg : AnswerGiven ret v h)
    (hq' : (inner W d r q s).2.reqs[r]? = some q')
    (hm : ∀ m n, q'.method = some m → (W.method m).output ≠ .name n) :
    outcome (dispatch W d r) s = .error .attributeError := by
  rw [outcome, nameless_dispatch W d r s q q' ret v h hq hp h1 hret hg hq' hm]

/-- **C112 (classes).** A service none of whose methods has the name of an element as output - all outputs are classes,
say - answers nothing but faults. -/
theorem C112_classes (hm : ∀ m n, (W.method m).output ≠ .name n) (answer : Response)
    (ha : outcome (dispatch W d r) s = .ok answer) : ∃ c m h, IsFault (inner W d r q s).1 c m h := by
  obtain ⟨q', hq'⟩ := inner_req (W := W) (d := d) hq
  rcases outcome_cases (inner W d r q s).1 with hf | ⟨ret, v, h, hret, hg⟩ | ⟨e, he, ho⟩
  · exact hf
  · rw [C112_nameless W d r s q q' ret v h hq hp h1 hret hg hq' fun m n _ => hm m n] at ha
    cases ha
  · rw [outcome, C43_propagates W d r s q e hq hp h1 he ho] at ha
    cases ha

/-- **C112 (named).** What a dispatcher answers when middlewares and method return an object: a document whose Body has
one child, named after the output of the method that the request has then. -/
theorem C112_named (h2 : (W.disp d).hooks.get? py"soap-response" = none) (hD : 4 ≤ W.depth) (c : ClsId)
    (fs : List (Str × Val)) (x : Option Xml) (hv : v = .inst c fs x) (hh : h = Val.none ∨ ∃ c fs x, h = .inst c fs x)
    (hret : (inner W d r q s).1 = .ok ret) (hg : AnswerGiven ret v h) (answer : Response)
    (ha : outcome (dispatch W d r) s = .ok answer) :
    ∃ q' m n doc body y, (inner W d r q s).2.reqs[r]? = some q' ∧ q'.method = some m ∧ (W.method m).output = .name n ∧
      answer.content = .bytes (W.write doc) ∧ LastChild doc py"Body" body ∧ body.kids = [y] ∧ y.Named n := by
  obtain ⟨q', hq'⟩ := inner_req (W := W) (d := d) hq
  by_cases hm : ∀ m n, q'.method = some m → (W.method m).output ≠ .name n
  · rw [C112_nameless W d r s q q' ret v h hq hp h1 hret hg hq' hm] at ha
    cases ha
  · obtain ⟨m, hm⟩ := Classical.not_forall.1 hm
    obtain ⟨n, hm⟩ := Classical.not_forall.1 hm
    have hm1 : q'.method = some m := Classical.byContradiction fun hn => hm fun hh => absurd hh hn
    have hm2 : (W.method m).output = .name n := Classical.byContradiction fun hn => hm fun _ => hn
    obtain ⟨resp, hc, hb, hhd⟩ := catch_gives hg
    rw [← hret] at hc
    cases hx : responseXml (W.disp d).service.version (W.table (W.disp d).service) W.depth n v h with
    | error e =>
      have hf : finishResponse W (W.disp d) q'.method resp = .error e := by
        unfold finishResponse
        simp only [hb, hm1, answerTag, hm2, Except_ok_bind, hhd, hx]
        rfl
      rw [outcome, dispatch_inner hq hp h1, afterChain_finish_error hc hq' hf] at ha
      cases ha
    | ok doc =>
      have hf : finishResponse W (W.disp d) q'.method resp = .ok { resp with
          httpHeaders := Dict.set resp.httpHeaders py"Content-Type" (W.disp d).service.version.contentType,
          content := .bytes (W.write doc) } := by
        unfold finishResponse
        simp only [hb, hm1, answerTag, hm2, Except_ok_bind, hhd, hx]
      rw [outcome, dispatch_inner hq hp h1, afterChain_eq h2 hc hq' hf] at ha
      injection ha with ha
      obtain ⟨k, hk⟩ := world_depth hD
      rw [World.table, hk, hv] at hx
      obtain ⟨sc, o, hdr, _, _, _, rfl⟩ := responseXml_shape hh hx
      refine ⟨q', m, n, _, .elem ⟨some (W.disp d).service.version.envelopeNs, py"Body"⟩ [] none
        [mkElem (QName.mk' sc.targetNamespace n) o none], mkElem (QName.mk' sc.targetNamespace n) o none,
        hq', hm1, hm2, by rw [← ha], ?_, rfl, ?_⟩
      · exact ⟨hdr.toList, [], rfl, ⟨_, _, _, _, rfl, rfl⟩, by simp⟩
      · refine ⟨_, _, _, _, rfl, ?_⟩
        unfold QName.mk'
        split <;> rfl

/-- **C112 (early).** A middleware that answers a request itself, with an object of its own instead of calling the next
one, makes AttributeError escape, even inside of `ExceptionToSoapFault`, because the request has no method yet. -/
theorem C112_early (hfresh : q.method = none) (tbs : List Bool) (mw : Middleware) (ms : List Middleware)
    (hmw : (W.disp d).middlewares = tbs.map (exceptionToSoapFault W) ++ mw :: ms) (f : Req → Ret)
    (hf : ∀ r, mw r = .get r fun q => .ret (f q)) (hg : ∀ q, ∃ v h, AnswerGiven (f q) v h) :
    outcome (dispatch W d r) s = .error .attributeError ∧ happened (dispatch W d r) s = [] := by
  have hin : inner W d r q s = (.ok (f { q with dispatcher := some d }), s.begin d r q) := by
    unfold inner
    rw [hmw]
    clear hmw
    induction tbs with
    | nil =>
      show (mw r).run _ _ = _
      rw [hf r]
      unfold Prog.run
      rw [M.bind_ok (getReq_some (begin_req hq))]
      rfl
    | cons tb tbs ih => exact C44_result W _ r _ _ tb _ ih
  obtain ⟨v, h, hgv⟩ := hg { q with dispatcher := some d }
  have hd := nameless_dispatch W d r s q { q with dispatcher := some d } _ v h hq hp h1 (by rw [hin]) hgv
    (by rw [hin]; exact begin_req hq) (fun m n hm => by simp [hfresh] at hm)
  refine ⟨by rw [outcome, hd], ?_⟩
  unfold happened
  rw [hd, hin]
  simp [State.begin]

/-- **C112 (schemas).** An object whose class belongs to no schema, or a header whose class belongs to none, cannot be
answered with either: AttributeError escapes. -/
theorem C112_schemaless (hD : 4 ≤ W.depth) (c : ClsId) (fs : List (Str × Val)) (x : Option Xml)
    (hc : cComplex ∈ (W.table (W.disp d).service c).mro)
    (hret : (inner W d r q s).1 = .ok ret) (hg : AnswerGiven ret (.inst c fs x) h)
    (hs : ((W.table (W.disp d).service c).schema = none ∧ h = Val.none) ∨
      ∃ c' fs' x', h = .inst c' fs' x' ∧ (W.table (W.disp d).service c').schema = none) :
    outcome (dispatch W d r) s = .error .attributeError := by
  obtain ⟨q', hq'⟩ := inner_req (W := W) (d := d) hq
  by_cases hm : ∀ m n, q'.method = some m → (W.method m).output ≠ .name n
  · exact C112_nameless W d r s q q' ret _ h hq hp h1 hret hg hq' hm
  · obtain ⟨m, hm⟩ := Classical.not_forall.1 hm
    obtain ⟨n, hm⟩ := Classical.not_forall.1 hm
    have hm1 : q'.method = some m := Classical.byContradiction fun hn => hm fun hh => absurd hh hn
    have hm2 : (W.method m).output = .name n := Classical.byContradiction fun hn => hm fun _ => hn
    obtain ⟨resp, hcatch, hb, hhd⟩ := catch_gives hg
    rw [← hret] at hcatch
    have hx : responseXml (W.disp d).service.version (W.table (W.disp d).service) W.depth n (.inst c fs x) h =
        .error .attributeError := by
      obtain ⟨k, hk⟩ := world_depth hD
      unfold World.table at hc hs ⊢
      rw [hk, responseXml_inst, if_pos (by simpa [isSub] using hc)]
      rcases hs with ⟨hs, rfl⟩ | ⟨c', fs', x', rfl, hs⟩
      · rw [envelopeXml_none, renderBody_named, hs]
        rfl
      · rw [envelopeXml_schemaless _ _ _ _ _ _ hs]
    have hf : finishResponse W (W.disp d) q'.method resp = .error .attributeError := by
      unfold finishResponse
      simp only [hb, hm1, answerTag, hm2, Except_ok_bind, hhd, hx]
      rfl
    rw [outcome, dispatch_inner hq hp h1, afterChain_finish_error hcatch hq' hf]

end

namespace ExUn

/-- The method of the example before with the class of its answers as output, wrapped in `ExceptionToSoapFault`. -/
def byClass : World := { ExC.world { ExC.hello with output := .cls 9 } with
  disp := fun _ => { service := { schemas := [0], methods := [0] }, strict := false, validator := fun _ => .ok (),
                     wsdl := [], middlewares := [exceptionToSoapFault (ExC.world ExC.hello) true] } }

def asked : Req := { environ := ExC.environ [], content := [1] }

/-- The method is called and returns its greeting, but the dispatcher raises AttributeError. -/
example : (happened (dispatch byClass 0 0) { reqs := [asked] }).length = 1 ∧
    outcome (dispatch byClass 0 0) { reqs := [asked] } = .error .attributeError := by
  refine ⟨by decide +kernel, ?_⟩
  refine C112_nameless byClass 0 0 { reqs := [asked] } asked _ _ _ _ rfl rfl rfl rfl (.response rfl) rfl ?_
  intro m n _
  show Part.cls 9 ≠ _
  nofun

/-- A middleware that answers from a cache. -/
def cache : Middleware := fun r => .get r fun _ => .ret (.obj (.val (.inst 9 [(py"greeting", .atom (.str py"Bob"))] none)))
def cached : World := { ExC.world with
  disp := fun _ => { service := { schemas := [0], methods := [0] }, strict := false, validator := fun _ => .ok (),
                     wsdl := [], middlewares := [exceptionToSoapFault ExC.world true, cache] } }

example : outcome (dispatch cached 0 0) { reqs := [asked] } = .error .attributeError :=
  (C112_early cached 0 0 _ asked rfl rfl rfl rfl [true] cache [] rfl _ (fun _ => rfl) fun _ => ⟨_, _, .object⟩).1

/-- Without it, the answer is named after the output. -/
example : ∃ answer, outcome (dispatch (ExC.world) 0 0) { reqs := [asked] } = .ok answer ∧ answer.content = .bytes [2] :=
  ⟨_, rfl, rfl⟩

/-- An answer with a header of a class without schema (class 11 of the example). -/
def headed : World := ExC.world { ExC.hello with
  function := some fun _ p => .ret (.response (mkResponse (.val (ExC.greet p)) (.inst 11 [] none))) }

example : outcome (dispatch headed 0 0) { reqs := [asked] } = .error .attributeError := by
  refine C112_schemaless headed 0 0 _ asked _ _ rfl rfl rfl (by decide) 9 _ _ (by decide) rfl (.response rfl)
    (.inr ⟨11, [], none, rfl, rfl⟩)

end ExUn

end Soapfish
