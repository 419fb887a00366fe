import Verif.Props.Answer
import Verif.Props.Dispatch
import Verif.Props.Integers
import Verif.Adapters
import Verif.ServiceExample
/-
The adapters: reading the body (C56), the answer (C72).
-/
namespace Soapfish
open Spec

/-- The state after the adapter has created the request. -/
def State.received (s : State) (env : Env) (content : Bytes) : State :=
  { s with reqs := s.reqs ++ [⟨env, content, Val.none, Val.none, none, none⟩] }

theorem received_req (s : State) (env : Env) (content : Bytes) :
    (s.received env content).reqs[s.reqs.length]? = some ⟨env, content, Val.none, Val.none, none, none⟩ := by
  simp [State.received]

theorem adapter_eq {α : Type} (m : M Response) (f : Response → α) (s : State) :
    (M.bind m fun r => M.pure (f r)) s = ((m s).1.map f, (m s).2) := by
  unfold M.bind
  cases h : m s with
  | mk o s' => cases o <;> rfl

theorem wsgi_length {W : World} {d : DispId} {env : Env} {body : Bytes} {s : State} {n : Int}
    (h : contentLength env = .ok n) : wsgiCall W d env body s =
      ((outcome (dispatch W d s.reqs.length) (s.received env (readStream body n))).map wsgiAnswer,
        (dispatch W d s.reqs.length (s.received env (readStream body n))).2) := by
  unfold wsgiCall
  simp only [M_bind, h]
  exact adapter_eq _ _ _

theorem length_denotes {env : Env} {t : Str} {n : Int} (ht : env py"CONTENT_LENGTH" = some t) (h : Denotes t n) :
    contentLength env = .ok n := by
  have := (pyInt_iff t n).2 h
  unfold contentLength
  rw [ht]
  cases t with
  | nil => cases this
  | cons c t => exact this

/-- **C56 (length).** With a length the dispatcher is called with a fresh request that has the environment and exactly
that many bytes of the body (all, if there are fewer); its answer is what the server gets. -/
theorem C56_length (W : World) (d : DispId) (env : Env) (body : Bytes) (s : State) (t : Str) (n : Nat)
    (ht : env py"CONTENT_LENGTH" = some t) (hn : Denotes t n) :
    wsgiCall W d env body s =
      ((outcome (dispatch W d s.reqs.length) (s.received env (body.take n))).map wsgiAnswer,
        (dispatch W d s.reqs.length (s.received env (body.take n))).2) := by
  rw [wsgi_length (length_denotes ht hn)]
  have : readStream body (n : Int) = body.take n := by
    unfold readStream
    rw [if_neg (by omega)]
    rfl
  rw [this]

/-- **C56 (no length).** Without a length, or with an empty one, nothing is read. -/
theorem C56_none (W : World) (d : DispId) (env : Env) (body : Bytes) (s : State)
    (ht : env py"CONTENT_LENGTH" = none ∨ env py"CONTENT_LENGTH" = some []) :
    wsgiCall W d env body s =
      ((outcome (dispatch W d s.reqs.length) (s.received env [])).map wsgiAnswer,
        (dispatch W d s.reqs.length (s.received env [])).2) := by
  have : contentLength env = .ok 0 := by
    unfold contentLength
    rcases ht with h | h <;> rw [h] <;> rfl
  rw [wsgi_length this]
  rfl

/-- **C56 (beyond).** What follows the announced length does not matter. -/
theorem C56_beyond (W : World) (d : DispId) (env : Env) (body more : Bytes) (s : State) (t : Str)
    (ht : env py"CONTENT_LENGTH" = some t) (hn : Denotes t body.length) :
    wsgiCall W d env (body ++ more) s = wsgiCall W d env body s := by
  rw [C56_length W d env _ s t _ ht hn, C56_length W d env _ s t _ ht hn]
  simp

/-- **C56 (invalid).** A length that is not a number is a ValueError; nothing has happened. -/
theorem C56_invalid (W : World) (d : DispId) (env : Env) (body : Bytes) (s : State) (t : Str)
    (ht : env py"CONTENT_LENGTH" = some t) (hne : t ≠ []) (hn : ∀ i, ¬ Denotes t i) :
    wsgiCall W d env body s = (.error .valueError, s) := by
  have : contentLength env = .error .valueError := by
    unfold contentLength
    rw [ht]
    cases t with
    | nil => exact absurd rfl hne
    | cons c t =>
      show pyInt (c :: t) = _
      cases h : pyInt (c :: t) with
      | ok i => exact absurd ((pyInt_iff _ _).1 h) (hn i)
      | error e => rw [pyInt_error _ _ h]
  unfold wsgiCall
  simp only [M_bind, this]
  rfl

/-- **C56 (negative).** A negative length reads the whole body. -/
theorem C56_negative (W : World) (d : DispId) (env : Env) (body : Bytes) (s : State) (t : Str) (n : Int)
    (ht : env py"CONTENT_LENGTH" = some t) (hn : Denotes t n) (hneg : n < 0) :
    wsgiCall W d env body s =
      ((outcome (dispatch W d s.reqs.length) (s.received env body)).map wsgiAnswer,
        (dispatch W d s.reqs.length (s.received env body)).2) := by
  rw [wsgi_length (length_denotes ht hn)]
  have : readStream body n = body := by
    unfold readStream
    rw [if_pos hneg]
  rw [this]

/-! ### C72: answers -/

/-- **C72 (WSGI).** The server gets the status line of the answer, its headers, and its content as one chunk. -/
theorem C72_wsgi (r : Response) : (wsgiAnswer r).headers = r.httpHeaders ∧ (wsgiAnswer r).chunks = [r.content] ∧
    (r.status = 200 → (wsgiAnswer r).status = py"200 OK") ∧
    (r.status = 400 → (wsgiAnswer r).status = py"400 Bad Request") ∧
    (r.status = 404 → (wsgiAnswer r).status = py"404 Not Found") ∧
    (r.status = 500 → (wsgiAnswer r).status = py"500 Internal Server Error") := by
  refine ⟨rfl, rfl, ?_, ?_, ?_, ?_⟩ <;> intro h <;> unfold wsgiAnswer <;> rw [h]
  · exact (by decide +kernel : statusText 200 = py"200 OK")
  · exact (by decide +kernel : statusText 400 = py"400 Bad Request")
  · exact (by decide +kernel : statusText 404 = py"404 Not Found")
  · exact (by decide +kernel : statusText 500 = py"500 Internal Server Error")

/-- **C72 (status).** A status from 600 on has no standard phrase; the status line says 'None' instead. -/
theorem C72_status (r : Response) (h : 600 ≤ r.status) : (wsgiAnswer r).status = natStr r.status ++ py" None" := by
  have : httpResponses.find? (fun p => p.1 = r.status) = none := by
    rw [List.find?_eq_none]
    intro p hp
    have hlt : ∀ p ∈ httpResponses, p.1 < 600 := by decide +kernel
    have := hlt p hp
    simp only [decide_eq_true_eq]
    omega
  show statusText r.status = _
  unfold statusText
  rw [this]
  rfl

/-- **C72 (faults).** If reading, dispatching or the method ends in a fault, the server gets status 500 and the fault
document. -/
theorem C72_fault (W : World) (d : DispId) (env : Env) (body : Bytes) (s : State) (t c m : Str)
    (ht : env py"CONTENT_LENGTH" = some t) (hn : Denotes t body.length) (hp : env py"REQUEST_METHOD" = some py"POST")
    (h1 : (W.disp d).hooks.get? py"soap-request" = none) (h2 : (W.disp d).hooks.get? py"soap-response" = none)
    (hD : 4 ≤ W.depth)
    (hf : IsFault (inner W d s.reqs.length ⟨env, body, Val.none, Val.none, none, none⟩ (s.received env body)).1 c m
      Val.none) (hc : XmlOk c) (hm : XmlOk m) :
    ∃ a, outcome (wsgiCall W d env body) s = .ok a ∧ a.status = py"500 Internal Server Error" ∧
      a.chunks = [.bytes (W.write (faultDoc (W.disp d).service.version c m none))] ∧
      a.headers.get? py"Content-Type" = some (W.disp d).service.version.contentType := by
  obtain ⟨resp, r1, r2, r3, r4⟩ := C42_fault W d s.reqs.length (s.received env body) _ c m (received_req s env body)
    hp h1 h2 hD hf hc hm
  obtain ⟨a1, a2, _, _, _, a3⟩ := C72_wsgi resp
  refine ⟨wsgiAnswer resp, ?_, a3 r2, by rw [a2, r3], by rw [a1]; exact r4⟩
  have := C56_length W d env body s t body.length ht hn
  rw [List.take_length] at this
  unfold outcome at r1 ⊢
  rw [this]
  unfold outcome
  rw [r1]
  rfl

/-- **C72 (bad requests).** A request that is neither a call nor asks for a document is answered with status 200 and a
chunk that is text, not bytes. -/
theorem C72_bad (W : World) (d : DispId) (env : Env) (body : Bytes) (s : State)
    (ht : env py"CONTENT_LENGTH" = none) (q : Req) (hq : q = ⟨env, [], Val.none, Val.none, none, none⟩)
    (h1 : ¬ AsksWsdl q) (h2 : ¬ AsksXsd q) (h3 : ¬ IsPost q) :
    outcome (wsgiCall W d env body) s =
      .ok ⟨py"200 OK", [(py"Content-Type", py"text/plain")], [.str py"bad_request"]⟩ := by
  subst hq
  unfold outcome
  rw [C56_none W d env body s (.inl ht)]
  unfold outcome
  rw [C37_bad W d s.reqs.length (s.received env []) _ (received_req s env []) h1 h2 h3]
  have : statusText 200 = py"200 OK" := by decide +kernel
  simp only [Except.map, wsgiAnswer, this]

/-- **C72 (Django).** The Django adapter hands the body to the dispatcher and copies the answer. -/
theorem C72_django (W : World) (d : DispId) (initial environ : Dict Str) (body : Bytes) (s : State) :
    djangoDispatch W d initial environ body s =
      ((outcome (dispatch W d s.reqs.length) (s.received (djangoEnv environ) body)).map (frameworkAnswer initial),
        (dispatch W d s.reqs.length (s.received (djangoEnv environ) body)).2) := by
  unfold djangoDispatch
  simp only [M_bind]
  exact adapter_eq _ _ _

/-- **C72 (Flask).** So does the Flask adapter. -/
theorem C72_flask (W : World) (d : DispId) (initial environ : Dict Str) (body : Bytes) (s : State) :
    flaskDispatch W d initial environ body s =
      ((outcome (dispatch W d s.reqs.length) (s.received (fun k => environ.get? k) body)).map (frameworkAnswer initial),
        (dispatch W d s.reqs.length (s.received (fun k => environ.get? k) body)).2) := by
  unfold flaskDispatch
  simp only [M_bind]
  exact adapter_eq _ _ _

/-- The headers with a name, however spelled. -/
def Dict.named (h : Dict Str) (k : Str) : Dict Str := h.filter fun p => lower p.1 = lower k

theorem setHeader_self (k v : Str) (h : Dict Str) : (setHeader k v h).named k = [(k, v)] := by
  induction h with
  | nil => simp [setHeader, Dict.named]
  | cons p r ih =>
    obtain ⟨k', v'⟩ := p
    unfold setHeader
    by_cases hk : lower k' = lower k
    · rw [if_pos hk]
      simp [Dict.named, List.filter_filter]
    · rw [if_neg hk]
      unfold Dict.named at ih ⊢
      rw [List.filter_cons_of_neg (by simpa using hk), ih]

theorem setHeader_other (k v k2 : Str) (h : Dict Str) (hk : lower k ≠ lower k2) :
    (setHeader k v h).named k2 = h.named k2 := by
  induction h with
  | nil => simp [setHeader, Dict.named, hk]
  | cons p r ih =>
    obtain ⟨k', v'⟩ := p
    unfold setHeader
    by_cases hk' : lower k' = lower k
    · rw [if_pos hk']
      unfold Dict.named
      rw [List.filter_cons_of_neg (by simpa using hk), List.filter_cons_of_neg (by simpa [hk'] using hk),
        List.filter_filter]
      congr 1
      funext p
      by_cases h2 : lower p.1 = lower k2
      · simp [h2, Ne.symm hk]
      · simp [h2]
    · rw [if_neg hk']
      unfold Dict.named at ih ⊢
      by_cases h2 : lower k' = lower k2
      · rw [List.filter_cons_of_pos (by simpa using h2), List.filter_cons_of_pos (by simpa using h2), ih]
      · rw [List.filter_cons_of_neg (by simpa using h2), List.filter_cons_of_neg (by simpa using h2), ih]

theorem headers_kept (l : Dict Str) (k : Str) (h : Dict Str) (hk : ∀ p ∈ l, lower p.1 ≠ lower k) :
    (l.foldl (fun h p => setHeader p.1 p.2 h) h).named k = h.named k := by
  induction l generalizing h with
  | nil => rfl
  | cons p l ih =>
    rw [List.foldl_cons, ih _ fun q hq => hk q (by simp [hq]), setHeader_other _ _ _ _ (hk p (by simp))]

/-- **C72 (headers).** In the answer of a framework every header of the dispatcher's answer occurs exactly once, with
its value, and replaces the framework's own; the framework's other headers stay. -/
theorem C72_headers (initial : Dict Str) (r : Response)
    (hd : r.httpHeaders.Pairwise fun p q => lower p.1 ≠ lower q.1) :
    (∀ p ∈ r.httpHeaders, (frameworkAnswer initial r).headers.named p.1 = [p]) ∧
    (∀ k, (∀ p ∈ r.httpHeaders, lower p.1 ≠ lower k) →
      (frameworkAnswer initial r).headers.named k = initial.named k) ∧
    (frameworkAnswer initial r).status = r.status ∧ (frameworkAnswer initial r).content = r.content := by
  refine ⟨?_, fun k hk => headers_kept _ _ _ hk, rfl, rfl⟩
  unfold frameworkAnswer
  simp only
  generalize r.httpHeaders = l at hd
  induction l generalizing initial with
  | nil => simp
  | cons p l ih =>
    intro q hq
    rw [List.pairwise_cons] at hd
    rcases List.mem_cons.1 hq with rfl | hq
    · rw [List.foldl_cons, headers_kept _ _ _ fun p hp h => hd.1 p hp h.symm, setHeader_self]
    · exact ih _ hd.2 q hq

/-! ### Examples -/

/-- A call through WSGI: two bytes are on the stream, one is announced. -/
example : outcome (wsgiCall ExS.world 0 (Dict.env [(py"REQUEST_METHOD", py"POST"), (py"CONTENT_LENGTH", py" 1 ")])
    [1, 7]) {} = .ok ⟨py"200 OK", [(py"Content-Type", py"text/xml")], [.bytes [0]]⟩ := by rfl

/-- Without a length nothing is read, which is not a document: a fault. -/
example : outcome (wsgiCall ExS.world 0 (Dict.env [(py"REQUEST_METHOD", py"POST")]) [1, 7]) {} =
    .ok ⟨py"500 Internal Server Error", [(py"Content-Type", py"text/xml")], [.bytes [0]]⟩ := by rfl

/-- The framework's content type is replaced. -/
example : (frameworkAnswer [(py"content-type", py"text/html"), (py"X-Frame", py"deny")]
    ⟨Val.none, .val Val.none, 200, [(py"Content-Type", py"text/xml")], .bytes []⟩).headers =
    [(py"Content-Type", py"text/xml"), (py"X-Frame", py"deny")] := by decide

end Soapfish
