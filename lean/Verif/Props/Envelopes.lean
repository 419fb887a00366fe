import Verif.Spec.Mixed
import Verif.Client
import Verif.HandleLemmas
import Verif.Props.Dispatch
import Verif.Props.Action
/-
C137: the version of an envelope is not looked at.
-/
namespace Soapfish

theorem elementByName_letters (W : World) (read' : Bytes → Option Xml) (name : Str) :
    ∀ (n : Nat), elementByName { W with read := read' } name n = elementByName W name n := by
  intro n
  induction n with
  | zero => rfl
  | succ n ih =>
    funext s
    rw [elementByName.eq_def, elementByName.eq_def W]
    simp only [ih]

theorem findElement_letters (W : World) (read' : Bytes → Option Xml) (S : Service) (name : Str) :
    S.findElement { W with read := read' } name = S.findElement W name := by
  unfold Service.findElement
  rw [elementByName_letters]

theorem parseInput_letters (W : World) (read' : Bytes → Option Xml) (S : Service) (m : Method) (x : Xml) :
    parseInput { W with read := read' } S m x = parseInput W S m x := by
  unfold parseInput
  simp only [findElement_letters]
  rfl

theorem answerBody_letters (W : World) (read' : Bytes → Option Xml) (S : Service) (m : Method) {b b' : Val}
    (h : bodyContent b' = bodyContent b) : answerBody { W with read := read' } S m b' = answerBody W S m b := by
  have hp : ∀ c, bodyParseAs (World.table { W with read := read' } S) W.depth c b' = bodyParseAs (W.table S) W.depth c b := by
    intro c
    unfold bodyParseAs
    rw [h]
    rfl
  unfold answerBody
  simp only [findElement_letters, hp]

theorem readAndValidate_letters {W : World} {read' : Bytes → Option Xml} (hD : 4 ≤ W.depth) (h : SameLetters W.read read')
    (d : Dispatcher) (c : Bytes) : readAndValidate { W with read := read' } d c = readAndValidate W d c := by
  rcases h c with h | ⟨doc, doc', hdr, x, h1, h2, h3, h4⟩
  · have hp : parseSoapContent { W with read := read' } d.service c = parseSoapContent W d.service c := by
      unfold parseSoapContent
      simp only [h]
      rfl
    unfold readAndValidate
    rw [hp]
    rfl
  · obtain ⟨k, hk⟩ : ∃ k, W.depth = k + 4 := ⟨W.depth - 4, by omega⟩
    rw [readAndValidate_plain hk h1 h3, readAndValidate_plain (W := { W with read := read' }) hk h2 h4]
    rfl

/-- **C137.** A dispatcher does the same, whatever the version of SOAP of the envelope — with whatever methods, middlewares and
hooks, for every request, in every state: no message is refused because it is of another version. -/
theorem C137_dispatch (W : World) (read' : Bytes → Option Xml) (hD : 4 ≤ W.depth) (h : SameLetters W.read read') (d : DispId)
    (r : ReqId) (s : State) : dispatch { W with read := read' } d r s = dispatch W d r s := by
  have h1 : ∀ D r s, prepareRequest { W with read := read' } D r s = prepareRequest W D r s := by
    intro D r s
    unfold prepareRequest
    simp only [readAndValidate_letters hD h, parseInput_letters]
    rfl
  have h1' : ∀ D r, prepareRequest { W with read := read' } D r = prepareRequest W D r := fun D r => funext (h1 D r)
  have h2 : ∀ r, callMethod { W with read := read' } r = callMethod W r := by
    intro r
    unfold callMethod
    simp only [h1']
  have h3 : ∀ (l : List Middleware) r, chain { W with read := read' } l r = chain W l r := by
    intro l
    induction l with
    | nil => exact h2
    | cons m l ih =>
      intro r
      unfold chain
      simp only [ih]
  have h4 : handleSoap { W with read := read' } d r = handleSoap W d r := by
    unfold handleSoap
    simp only [h3]
    rfl
  unfold dispatch
  simp only [h4]
  rfl

/-- **C137.** Nor does a client look at the version of the envelope of an answer. -/
theorem C137_answer (W : World) (S : Service) (read' : Bytes → Option Xml) (hD : 4 ≤ W.depth) (h : SameLetters W.read read')
    (m : Method) (content : Bytes) :
    handleResponse { W with read := read' } S m content = handleResponse W S m content := by
  have hdone : ∀ (D D' B B' : Xml) (hdr : Option Xml), B'.kids = B.kids →
      readAnswer { W with read := read' } S m (.inst cEnvelope [(py"Header", headerVal hdr),
        (py"Body", .inst cBody [(py"message", Val.none), (py"Fault", Val.none)] (some B'))] (some D')) =
      readAnswer W S m (.inst cEnvelope [(py"Header", headerVal hdr),
        (py"Body", .inst cBody [(py"message", Val.none), (py"Fault", Val.none)] (some B))] (some D)) := by
    intro D D' B B' hdr hB
    have := answerBody_letters W read' S m (b := .inst cBody [(py"message", Val.none), (py"Fault", Val.none)] (some B))
      (b' := .inst cBody [(py"message", Val.none), (py"Fault", Val.none)] (some B'))
      (by simp only [bodyContent, Val.element, Except_ok_bind, hB])
    show (do
      let h ← raised (answerHeader W S m (headerVal hdr))
      let v ← raised (answerBody { W with read := read' } S m
        (.inst cBody [(py"message", Val.none), (py"Fault", Val.none)] (some B')))
      Except.ok (mkResponse (.val v) h)) = _
    rw [this]
    rfl
  rcases h content with h | ⟨doc, doc', hdr, x, h1, h2, h3, h4⟩
  · have hr : ∀ env, readAnswer { W with read := read' } S m env = readAnswer W S m env := by
      intro env
      unfold readAnswer
      simp only [answerBody_letters W read' S m rfl]
      rfl
    unfold handleResponse
    simp only [h, hr]
    rfl
  · obtain ⟨k, hk⟩ : ∃ k, W.depth = k + 4 := ⟨W.depth - 4, by omega⟩
    obtain ⟨b, hb, he⟩ := parse_plain (v := S.version) (U := W.user) (k := k) h3
    obtain ⟨b', hb', he'⟩ := parse_plain (v := S.version) (U := W.user) (k := k) h4
    rw [← hk] at he he'
    have e1 := congrArg (fun r => raised r >>= readAnswer W S m) he
    have e2 := congrArg (fun r => raised r >>= readAnswer { W with read := read' } S m) he'
    unfold handleResponse
    simp only [h1, h2]
    refine e2.trans (Eq.trans ?_ e1.symm)
    exact hdone doc doc' b b' hdr (hb'.trans hb.symm)

/-- **C137.** Thus a call gives the same, whatever the version of the envelope of the answer. -/
theorem C137_call (W : World) (S : Service) (read' : Bytes → Option Xml) (hD : 4 ≤ W.depth) (h : SameLetters W.read read')
    (post : Dict Str → Bytes → Except Exn Bytes) (op : Str) (param header : Val) :
    stubCall { W with read := read' } S post op param header = stubCall W S post op param header := by
  unfold stubCall
  simp only [C137_answer W S read' hD h]
  rfl

/-- **C137.** But the faults of the other version are not understood.  To a client for SOAP 1.2, like those of C136, a fault of
SOAP 1.1 is not a fault with a code and a message, but an AttributeError; -/
theorem C137_fault11 (W : World) (S : Service) (hS : S.version = .soap12) (hD : 4 ≤ W.depth) (m : Method) (content : Bytes)
    (code message : Str) (actor : Option Str) (h : W.read content = some (faultDoc .soap11 code message actor)) :
    handleResponse W S m content = .error (.other .attributeError) := by
  obtain ⟨k, hk⟩ : ∃ k, W.depth = k + 4 := ⟨W.depth - 4, by omega⟩
  have he : ∃ bx fx, parseEnvelope (W.table S) W.depth (faultDoc .soap11 code message actor) = .ok (.inst cEnvelope
      [(py"Header", Val.none), (py"Body", .inst cBody [(py"message", Val.none), (py"Fault", .inst cFault
        [(py"Code", Val.none), (py"Reason", Val.none), (py"Role", Val.none)] fx)] bx)]
      (some (faultDoc .soap11 code message actor))) := by
    rw [World.table, hS, hk]
    cases actor <;> exact ⟨_, _, rfl⟩
  obtain ⟨bx, fx, he⟩ := he
  have hh : answerHeader W S m Val.none = .ok Val.none := by
    unfold answerHeader
    cases m.outputHeader <;> rfl
  have e1 := congrArg (fun r => raised r >>= readAnswer W S m) he
  unfold handleResponse
  simp only [h]
  refine e1.trans ?_
  show (do
    let _ ← raised (answerHeader W S m Val.none)
    let (code, message, actor) ← raised (faultParts S.version (.inst cFault
        [(py"Code", Val.none), (py"Reason", Val.none), (py"Role", Val.none)] fx))
    Except.error (CallError.fault code message actor)) = _
  rw [hh, hS]
  rfl

/-- and to a client for SOAP 1.1, a fault of SOAP 1.2 is one without a code and a message. -/
theorem C137_fault12 (W : World) (S : Service) (hS : S.version = .soap11) (hD : 4 ≤ W.depth) (m : Method) (content : Bytes)
    (code message : Str) (actor : Option Str) (h : W.read content = some (faultDoc .soap12 code message actor)) :
    handleResponse W S m content = .error (.fault Val.none Val.none Val.none) := by
  obtain ⟨k, hk⟩ : ∃ k, W.depth = k + 4 := ⟨W.depth - 4, by omega⟩
  have he : ∃ bx fx, parseEnvelope (W.table S) W.depth (faultDoc .soap12 code message actor) = .ok (.inst cEnvelope
      [(py"Header", Val.none), (py"Body", .inst cBody [(py"message", Val.none), (py"Fault", .inst cFault
        [(py"faultcode", Val.none), (py"faultstring", Val.none), (py"faultactor", Val.none)] fx)] bx)]
      (some (faultDoc .soap12 code message actor))) := by
    rw [World.table, hS, hk]
    cases actor <;> exact ⟨_, _, rfl⟩
  obtain ⟨bx, fx, he⟩ := he
  have hh : answerHeader W S m Val.none = .ok Val.none := by
    unfold answerHeader
    cases m.outputHeader <;> rfl
  have e1 := congrArg (fun r => raised r >>= readAnswer W S m) he
  unfold handleResponse
  simp only [h]
  refine e1.trans ?_
  show (do
    let _ ← raised (answerHeader W S m Val.none)
    let (code, message, actor) ← raised (faultParts S.version (.inst cFault
        [(py"faultcode", Val.none), (py"faultstring", Val.none), (py"faultactor", Val.none)] fx))
    Except.error (CallError.fault code message actor)) = _
  rw [hh, hS]
  rfl

theorem dict_get_mem {d : Dict Str} {k v : Str} (h : d.get? k = some v) : (k, v) ∈ d := by
  induction d with
  | nil => cases h
  | cons p d ih =>
    obtain ⟨k', v'⟩ := p
    rw [Dict.get?] at h
    split at h
    · next e => injection h with h; subst e; subst h; simp
    · exact List.mem_cons_of_mem _ (ih h)

/-- **C137.** The action of a message of the other version is not seen, neither in a WSGI nor in a Django environment: where
the variables for actions and content types come from the headers of a client for the other version, a message has no action,
and the name of the element in its body decides which method answers it (C39). -/
theorem C137_action (S : Service) (v : Version) (hv : v ≠ S.version) (a : Str) (d : Dict Str)
    (hd : ∀ k x, (k, x) ∈ d → (∃ h, (h, x) ∈ v.requestHeaders a ∧ k = cgiVariable h) ∨
      k ∉ [py"SOAPACTION", py"ACTION", py"CONTENT_TYPE", py"HTTP_SOAPACTION", py"HTTP_ACTION", py"HTTP_CONTENT_TYPE"])
    (env : Env) (he : env = d.env ∨ env = djangoEnv d) : ∀ b, ¬ HasAction S env b := by
  have hct : cgiVariable py"Content-Type" = py"CONTENT_TYPE" := by decide
  have hsa : cgiVariable py"SOAPAction" = py"HTTP_SOAPACTION" := by decide
  have hget : ∀ k x, d.get? k = some x → k ∈ [py"SOAPACTION", py"ACTION", py"CONTENT_TYPE", py"HTTP_SOAPACTION",
      py"HTTP_ACTION", py"HTTP_CONTENT_TYPE"] → ∃ h, (h, x) ∈ v.requestHeaders a ∧ k = cgiVariable h := by
    intro k x h hk
    rcases hd k x (dict_get_mem h) with h | h
    · exact h
    · exact absurd hk h
  have hdj : ∀ name key, (name.map fun c => if c = '-' then '_' else c).map upperC = key → djangoEnv d name =
      match d.get? key with | some v => some v | none => d.get? (py"HTTP_" ++ key) := by
    intro name key h
    subst h
    rfl
  rintro b ⟨hb, _⟩
  cases hS : S.version with
  | soap11 =>
    cases v with
    | soap11 => exact hv hS.symm
    | soap12 =>
      have none_of : ∀ k, k ∈ [py"SOAPACTION", py"ACTION", py"HTTP_SOAPACTION", py"HTTP_ACTION"] → d.get? k = none := by
        intro k hk
        cases h : d.get? k with
        | none => rfl
        | some x =>
          obtain ⟨h', hm, rfl⟩ := hget k x h (by
            simp only [List.mem_cons, List.not_mem_nil, or_false] at hk ⊢
            rcases hk with h | h | h | h <;> simp [h])
          simp only [Version.requestHeaders, List.mem_cons, List.not_mem_nil, or_false, Prod.mk.injEq] at hm
          rw [hm.1, hct] at hk
          exact absurd hk (by decide)
      have e : env py"SOAPACTION" = none ∧ env py"ACTION" = none := by
        rcases he with rfl | rfl
        · exact ⟨none_of _ (by decide), none_of _ (by decide)⟩
        · rw [hdj py"SOAPACTION" py"SOAPACTION" (by decide), hdj py"ACTION" py"ACTION" (by decide),
            none_of py"SOAPACTION" (by decide), none_of py"ACTION" (by decide)]
          exact ⟨none_of py"HTTP_SOAPACTION" (by decide), none_of py"HTTP_ACTION" (by decide)⟩
      rw [hS] at hb
      unfold Version.determineAction at hb
      simp [e.1, e.2, truthy] at hb
  | soap12 =>
    cases v with
    | soap12 => exact hv hS.symm
    | soap11 =>
      have hval : ∀ k x, d.get? k = some x → k = py"CONTENT_TYPE" ∨ k = py"HTTP_CONTENT_TYPE" → x = py"text/xml" := by
        intro k x h hk
        obtain ⟨h', hm, rfl⟩ := hget k x h (by rcases hk with h | h <;> simp [h])
        simp only [Version.requestHeaders, List.mem_cons, List.not_mem_nil, or_false, Prod.mk.injEq] at hm
        rcases hm with ⟨_, rfl⟩ | ⟨rfl, _⟩
        · rfl
        · rw [hsa] at hk
          exact absurd hk (by decide)
      have e : env py"CONTENT_TYPE" = none ∨ env py"CONTENT_TYPE" = some py"text/xml" := by
        rcases he with rfl | rfl
        · show d.get? _ = none ∨ d.get? _ = _
          cases h : d.get? py"CONTENT_TYPE" with
          | none => exact .inl rfl
          | some x => rw [hval _ _ h (.inl rfl)]; exact .inr rfl
        · rw [hdj py"CONTENT_TYPE" py"CONTENT_TYPE" (by decide)]
          cases h : d.get? py"CONTENT_TYPE" with
          | some x => rw [hval _ _ h (.inl rfl)]; exact .inr rfl
          | none =>
            show d.get? _ = none ∨ d.get? _ = _
            cases h : d.get? (py"HTTP_" ++ py"CONTENT_TYPE") with
            | none => exact .inl rfl
            | some x => rw [hval _ _ h (.inr rfl)]; exact .inr rfl
      rw [hS] at hb
      have hno : Version.soap12.determineAction env = none := by
        have h1 : (parseHeader []).1 ≠ Version.soap12.contentType := by decide +kernel
        have h2 : (parseHeader py"text/xml").1 ≠ Version.soap12.contentType := by decide +kernel
        unfold Version.determineAction
        rcases e with e | e
        · simp only [e, Option.getD_none, if_neg h1]
        · simp only [e, Option.getD_some, if_neg h2]
      rw [hno] at hb
      cases hb

namespace ExEnvelopes
open ExS

/-- The first example message, in an envelope of SOAP 1.2 -/
def letter12 : Xml :=
  .elem ⟨some py"http://www.w3.org/2003/05/soap-envelope", py"Envelope"⟩ [] none
    [.elem ⟨some py"http://www.w3.org/2003/05/soap-envelope", py"Body"⟩ [] none [body py"sayHello"]]

def read12 (b : Bytes) : Option Xml := if b = [1] then some letter12 else (world true).read b

theorem same12 : SameLetters (world true).read read12 := by
  intro c
  by_cases hc : c = [1]
  · subst hc
    exact .inr ⟨_, letter12, none, _, rfl, rfl, plain1,
      ⟨_, _, _, _, _, _, py"sayHello", rfl, rfl, by decide, ⟨_, _, _, _, rfl, rfl⟩, by decide, by decide, by simp⟩⟩
  · exact .inl (by simp [read12, hc])

/-- The service is of SOAP 1.1; the message of SOAP 1.2 makes the method run as before. -/
example : (disp true).service.version = .soap11 ∧
    (happened (dispatch { world true with read := read12 } 0 0) { reqs := [request py"POST" [1]] }).head? =
    some (.method 0 0 { request py"POST" [1] with
      dispatcher := some 0, method := some 0, soapBody := input py"sayHello" } (input py"sayHello")) := by
  refine ⟨rfl, ?_⟩
  unfold happened
  rw [C137_dispatch (world true) read12 (by decide) same12]
  exact C38_C39_called (world true) 0 0 _ _ _ _ none py"sayHello" 0 Val.none _ _ rfl rfl rfl rfl (by decide) rfl plain1 (by simp) rfl
    ⟨_, _, _, _, rfl, rfl⟩ (.input (fun a h => by cases h.1) ⟨[], [], rfl, rfl, by simp⟩) .missing (reads _ true) rfl

/-- A fault of SOAP 1.1 at a client for SOAP 1.2 -/
example (m : Method) : handleResponse { world true with read := fun _ => some (faultDoc .soap11 py"Client" py"no" none) }
    { (disp true).service with version := .soap12 } m [7] = .error (.other .attributeError) :=
  C137_fault11 _ _ rfl (by decide) m [7] py"Client" py"no" none rfl

/-- A request from a client for SOAP 1.2, as a web server passes it on, at a service for SOAP 1.1 -/
example : ∀ b, ¬ HasAction (disp true).service (Dict.env [(py"REQUEST_METHOD", py"POST"),
    (py"CONTENT_TYPE", py"application/soap+xml; action=\"urn:hello\"")]) b :=
  C137_action _ .soap12 (by decide) py"urn:hello" _ (by
    intro k x h
    rcases List.mem_cons.1 h with h | h
    · cases h; exact .inr (by decide)
    · rcases List.mem_cons.1 h with h | h
      · cases h; exact .inl ⟨py"Content-Type", by simp [Version.requestHeaders, Version.contentType], by decide⟩
      · cases h) _ (.inl rfl)

end ExEnvelopes

end Soapfish
