import Verif.Props.Answer
/-
Which requests reach which methods, and with what input (C37-C40, C49).
-/
namespace Soapfish

/-! ### C37: routing -/

theorem route_wsdl {q : Req} : ((q.environ py"REQUEST_METHOD").getD [] = py"GET" ∧
    (py"wsdl" ∈ (parseQs ((q.environ py"QUERY_STRING").getD [])).keys ∨
      py"singleWsdl" ∈ (parseQs ((q.environ py"QUERY_STRING").getD [])).keys)) ↔ AsksWsdl q := by
  rw [mem_keys_parseQs, mem_keys_parseQs]
  unfold AsksWsdl Req.query
  cases q.environ py"REQUEST_METHOD" <;> simp

theorem route_xsd {q : Req} : ((q.environ py"REQUEST_METHOD").getD [] = py"GET" ∧
    py"xsd" ∈ (parseQs ((q.environ py"QUERY_STRING").getD [])).keys) ↔
      q.environ py"REQUEST_METHOD" = some py"GET" ∧ HasKey q.query py"xsd" := by
  rw [mem_keys_parseQs]
  unfold Req.query
  cases q.environ py"REQUEST_METHOD" <;> simp

theorem route_post {q : Req} : (q.environ py"REQUEST_METHOD").getD [] = py"POST" ↔ IsPost q := by
  unfold IsPost
  cases q.environ py"REQUEST_METHOD" <;> simp

/-- **C37 (WSDL).** A GET request with a `wsdl` or `singleWsdl` field in the query is a WSDL request. -/
theorem C37_wsdl (W : World) (d : DispId) (r : ReqId) (s : State) (q : Req) (hq : s.reqs[r]? = some q)
    (h : AsksWsdl q) : dispatch W d r s = handleWsdl W d r s := by
  unfold dispatch
  simp only [M_bind]
  rw [M.bind_ok (getReq_some hq)]
  rw [if_pos (route_wsdl.2 h)]

/-- **C37 (XSD).** Otherwise a GET request with an `xsd` field is a schema request. -/
theorem C37_xsd (W : World) (d : DispId) (r : ReqId) (s : State) (q : Req) (hq : s.reqs[r]? = some q)
    (h : AsksXsd q) : dispatch W d r s = handleXsd W d r s := by
  obtain ⟨h1, h2, h3, h4⟩ := h
  unfold dispatch
  simp only [M_bind]
  rw [M.bind_ok (getReq_some hq)]
  rw [if_neg (fun h => by rcases (route_wsdl.1 h).2 with h | h; exact h3 h; exact h4 h), if_pos (route_xsd.2 ⟨h1, h2⟩)]

/-- **C37 (SOAP).** A POST request is a SOAP call, whatever its query. -/
theorem C37_soap (W : World) (d : DispId) (r : ReqId) (s : State) (q : Req) (hq : s.reqs[r]? = some q)
    (h : IsPost q) : dispatch W d r s = handleSoap W d r s := dispatch_post hq h

/-- **C37 (everything else).** Any other request gets the 'bad request' answer, and nothing else happens. -/
theorem C37_bad (W : World) (d : DispId) (r : ReqId) (s : State) (q : Req) (hq : s.reqs[r]? = some q)
    (h1 : ¬ AsksWsdl q) (h2 : ¬ AsksXsd q) (h3 : ¬ IsPost q) :
    dispatch W d r s = (.ok ⟨Val.none, .val (.atom (.str py"bad request")), 200,
      [(py"Content-Type", py"text/plain")], .str py"bad_request"⟩, s) := by
  unfold dispatch
  simp only [M_bind]
  rw [M.bind_ok (getReq_some hq)]
  rw [if_neg (fun h => h1 (route_wsdl.1 h)), if_neg ?_, if_neg (fun h => h3 (route_post.1 h))]
  · rfl
  · intro h
    obtain ⟨h4, h5⟩ := route_xsd.1 h
    exact h2 ⟨h4, h5, fun h => h1 ⟨h4, .inl h⟩, fun h => h1 ⟨h4, .inr h⟩⟩

/-- **C37 (no calls).** Nothing but a POST request makes any method run. -/
theorem C37_no_call (W : World) (d : DispId) (r : ReqId) (s : State) (q : Req) (hq : s.reqs[r]? = some q)
    (h : ¬ IsPost q) : ∀ e ∈ happened (dispatch W d r) s, e.NotCall := by
  by_cases h1 : AsksWsdl q
  · have := (handleWsdl_emits (P := Event.NotCall) (fun _ => trivial) W d r trivial trivial).happened s
    unfold happened at this ⊢
    rw [C37_wsdl W d r s q hq h1]
    exact this
  · by_cases h2 : AsksXsd q
    · have := (handleXsd_emits (P := Event.NotCall) (fun _ => trivial) W d r trivial trivial).happened s
      unfold happened at this ⊢
      rw [C37_xsd W d r s q hq h2]
      exact this
    · unfold happened
      rw [C37_bad W d r s q hq h1 h2 h]
      simp

/-- `?a=1&singleWsdl` asks for the WSDL; `%77sdl` does, too. -/
example : AsksWsdl (ExS.request py"GET" [] [(py"QUERY_STRING", py"a=1&singleWsdl")]) :=
  ⟨rfl, .inr ⟨[py"a=1", py"singleWsdl"], ⟨by simp, by simp, rfl⟩, py"singleWsdl", by simp, [], by simp, py"singleWsdl", [],
    by simp, .inl ⟨rfl, rfl⟩, rfl, rfl⟩⟩
example : AsksWsdl (ExS.request py"GET" [] [(py"QUERY_STRING", py"%77sdl=")]) :=
  ⟨rfl, .inl ⟨[py"%77sdl="], ⟨by simp, by simp, rfl⟩, py"%77sdl=", by simp, [], by simp, py"%77sdl", [], by simp,
    .inr rfl, by decide +kernel, rfl⟩⟩

/-! ### C38-C40: choosing a method -/

theorem handleSoap_emits (W : World) (d : DispId) (r : ReqId) : Emits (CallOk W) (handleSoap W d r) := by
  have hlog : ∀ e, CallOk W (.log e) := fun _ => trivial
  unfold handleSoap
  simp only [M_bind]
  exact .bind (callRequestHook_emits hlog _ _ _ trivial) fun r => .bind (.getReq r) fun q => .bind (.setReq _ _) fun _ =>
    .bind (.outcome ((chain_emits W _ r).mono fun e h => h.1)) fun o => .bind (.lift _) fun resp =>
    .bind (.getReq r) fun q => .bind (.lift _) fun resp => callResponseHook_emits hlog _ _ _ _ trivial

/-- **C40.** Whatever the middlewares and hooks do (calling the next step any number of times, swapping or changing
request objects, swallowing exceptions), every call of a method is made for a request whose content - at the time of
the call - is a well-formed envelope whose header and body passed validation; the method is the one specified for this
request, and its parameter is read from this very body. -/
theorem C40_only_checked (W : World) (d : DispId) (r : ReqId) (s : State) :
    ∀ e ∈ happened (dispatch W d r) s, CallOk W e := by
  have hlog : ∀ e, CallOk W (.log e) := fun _ => trivial
  refine Emits.happened ?_ s
  unfold dispatch
  simp only [M_bind]
  refine .bind (.getReq r) fun q => ?_
  split
  · exact handleWsdl_emits hlog W d r trivial trivial
  · split
    · exact handleXsd_emits hlog W d r trivial trivial
    · split
      · exact handleSoap_emits W d r
      · exact .pure _

/-- **C38, C39 (determinism).** A request is handled by at most one method. -/
theorem C38_C39_unique (W : World) (S : Service) (env : Env) (root : Str) (m m' : MethodId)
    (h : Handles W S env root m) (h' : Handles W S env root m') : m = m' := h.unique h'

/-- The call of a method, up to and including what it returns. -/
theorem callMethod_plain {W : World} {d : DispId} {r : ReqId} {s : State} {q : Req} {doc x : Xml} {hdr : Option Xml}
    {root : Str} {m : MethodId} {hv v : Val} {f : ReqId → Val → Prog Empty Ret} (hq : s.reqs[r]? = some q)
    (hd : q.dispatcher = some d) (hD : 4 ≤ W.depth) (hr : W.read q.content = some doc) (hp : PlainMessage doc hdr x)
    (hh : HeadersOk W (W.disp d) hdr) (hx : (W.disp d).validator x = .ok ()) (hn : x.Named root)
    (hm : Handles W (W.disp d).service q.environ root m) (hhv : ReadsHeader W (W.disp d).service m hdr hv)
    (hv' : ReadsInput W (W.disp d).service m x v) (hf : (W.method m).function = some f) :
    callMethod W r s = M.bind (f r v).run' (fun ret => M.pure (.response ret.toResponse))
      { reqs := s.reqs.set r { q with method := some m, soapHeader := hv, soapBody := v },
        trace := s.trace ++ [.method m r { q with method := some m, soapHeader := hv, soapBody := v } v] } := by
  have hlt : r < s.reqs.length := (List.getElem?_eq_some_iff.1 hq).1
  unfold callMethod
  simp only [M_bind]
  rw [M.bind_ok (getReq_some hq), hd, M.optE_some]
  have hprep : prepareRequest W (W.disp d) r s =
      (.ok (), { s with reqs := s.reqs.set r { q with method := some m, soapHeader := hv, soapBody := v } }) := by
    unfold prepareRequest
    simp only [M_bind]
    rw [M.bind_ok (getReq_some hq), M.lift_ok (readAndValidate_plain_ok hD hr hp hh hx)]
    simp only
    rw [M.lift_ok (findHandler_iff.2 ⟨root, hn, hm⟩), setReq_bind, M.lift_ok (parseHeaderPart_iff.2 hhv), setReq_bind,
      M.lift_ok (parseInput_iff.2 hv')]
    simp [setReq]
  rw [M.bind_ok hprep, M.bind_ok (getReq_some (q := { q with method := some m, soapHeader := hv, soapBody := v })
    (by simp [hlt])), M.optE_some, hf, M.optE_some, hd]
  rfl

/-- **C38, C39 (the method is called).** An ordinary, valid POST message for which method `m` is specified and whose
input can be read makes the dispatcher - without middlewares and hooks - call `m` with that input, as the first thing
that happens. -/
theorem C38_C39_called (W : World) (d : DispId) (r : ReqId) (s : State) (q : Req) (doc x : Xml) (hdr : Option Xml)
    (root : Str) (m : MethodId) (hv v : Val) (f : ReqId → Val → Prog Empty Ret) (hq : s.reqs[r]? = some q)
    (hpost : IsPost q) (hmid : (W.disp d).middlewares = []) (hhook : (W.disp d).hooks.get? py"soap-request" = none)
    (hD : 4 ≤ W.depth) (hr : W.read q.content = some doc) (hp : PlainMessage doc hdr x)
    (hh : ∀ h, hdr = some h → ∀ y ∈ h.kids, HeaderOk W (W.disp d) y) (hx : (W.disp d).validator x = .ok ())
    (hn : x.Named root) (hm : Handles W (W.disp d).service q.environ root m)
    (hhv : ReadsHeader W (W.disp d).service m hdr hv) (hv' : ReadsInput W (W.disp d).service m x v)
    (hf : (W.method m).function = some f) :
    (happened (dispatch W d r) s).head? =
      some (.method m r { q with dispatcher := some d, method := some m, soapHeader := hv, soapBody := v } v) := by
  have hq2 := begin_req (d := d) hq
  have hc := callMethod_plain (f := f) hq2 rfl hD hr hp hh hx hn hm hhv hv' hf
  unfold happened
  rw [dispatch_post hq hpost, handleSoap_run hhook hq, hmid]
  simp only [chain]
  rw [hc]
  have e1 : Emits (fun _ => True) (M.bind (f r v).run' fun ret => M.pure (Ret.response ret.toResponse)) :=
    .bind (.run' (fun _ => trivial) _) fun _ => .pure _
  generalize M.bind (f r v).run' (fun ret => M.pure (Ret.response ret.toResponse)) = P at e1
  obtain ⟨es, h1, _⟩ := e1 ⟨(s.begin d r q).reqs.set r
      { q with dispatcher := some d, method := some m, soapHeader := hv, soapBody := v },
    (s.begin d r q).trace ++
      [.method m r { q with dispatcher := some d, method := some m, soapHeader := hv, soapBody := v } v]⟩
  have e2 : ∀ o, Emits (fun _ => True) (afterChain W d r o) := by
    intro o
    unfold afterChain
    exact .bind (.lift _) fun _ => .bind (.getReq _) fun _ => .bind (.lift _) fun _ =>
      callResponseHook_emits (fun _ => trivial) _ _ _ _ trivial
  obtain ⟨es', h2, _⟩ := e2 _ _
  rw [h2, h1]
  have : (s.begin d r q).trace = s.trace := rfl
  rw [this, List.append_assoc, List.append_assoc, List.drop_left]
  rfl

/-! ### Rejected messages -/

section
variable {W : World} {d : DispId} {r : ReqId} {s : State} {q : Req}

theorem callMethod_rejected {e : Exn} (hq : s.reqs[r]? = some q) (hd : q.dispatcher = some d)
    (h : readAndValidate W (W.disp d) q.content = .error e) : callMethod W r s = (.error e, s) := by
  unfold callMethod
  simp only [M_bind]
  rw [M.bind_ok (getReq_some hq), hd, M.optE_some]
  have : prepareRequest W (W.disp d) r s = (.error e, s) := by
    unfold prepareRequest
    simp only [M_bind]
    rw [M.bind_ok (getReq_some hq), M.lift_error h]
  rw [M.bind_error this]

theorem callMethod_unhandled {e : Exn} {h : Val} {x : Xml} (hq : s.reqs[r]? = some q) (hd : q.dispatcher = some d)
    (hr : readAndValidate W (W.disp d) q.content = .ok (h, x))
    (hf : findHandler W (W.disp d).service q.environ x = .error e) : callMethod W r s = (.error e, s) := by
  unfold callMethod
  simp only [M_bind]
  rw [M.bind_ok (getReq_some hq), hd, M.optE_some]
  have : prepareRequest W (W.disp d) r s = (.error e, s) := by
    unfold prepareRequest
    simp only [M_bind]
    rw [M.bind_ok (getReq_some hq), M.lift_ok hr]
    simp only
    rw [M.lift_error hf]
  rw [M.bind_error this]

/-- A message that is rejected with a SOAPError is answered with the fault, and nothing else happens. -/
theorem rejected_answer {c m : Str} {a : Option Str} (hq : s.reqs[r]? = some q) (hp : IsPost q)
    (hmid : (W.disp d).middlewares = []) (h1 : (W.disp d).hooks.get? py"soap-request" = none)
    (h2 : (W.disp d).hooks.get? py"soap-response" = none) (hD : 4 ≤ W.depth)
    (h : callMethod W r (s.begin d r q) = (.error (.soapError c m a), s.begin d r q)) (hc : XmlOk c) (hm : XmlOk m) :
    ∃ resp, outcome (dispatch W d r) s = .ok resp ∧ resp.status = 500 ∧
      resp.content = .bytes (W.write (faultDoc (W.disp d).service.version c m none)) ∧
      happened (dispatch W d r) s = [] := by
  have hi : inner W d r q s = (.error (.soapError c m a), s.begin d r q) := by
    unfold inner
    rw [hmid]
    exact h
  obtain ⟨resp, g1, g2, g3, _⟩ := fault_answer hq hp h1 h2 hD (by rw [hi]; exact .raised) hc hm
  refine ⟨resp, by rw [outcome, g1], g2, g3, ?_⟩
  unfold happened
  rw [g1, hi]
  show s.trace.drop s.trace.length = []
  simp

theorem client_code (v : Version) : clientCode v = v.client := by cases v <;> rfl

theorem client_ok (v : Version) : XmlOk v.client := by cases v <;> (unfold XmlOk; decide)

theorem XmlOk.append {a b : Str} (ha : XmlOk a) (hb : XmlOk b) : XmlOk (a ++ b) := by
  intro c hc
  rcases List.mem_append.1 hc with h | h
  · exact ha c h
  · exact hb c h

end

/-- **C38 (unknown action).** A valid message with a SOAP action that no method has is answered with a Client fault;
nothing else happens. -/
theorem C38_unknown (W : World) (d : DispId) (r : ReqId) (s : State) (q : Req) (doc x : Xml) (hdr : Option Xml)
    (action : Str) (hq : s.reqs[r]? = some q) (hpost : IsPost q) (hmid : (W.disp d).middlewares = [])
    (h1 : (W.disp d).hooks.get? py"soap-request" = none) (h2 : (W.disp d).hooks.get? py"soap-response" = none)
    (hD : 4 ≤ W.depth) (hr : W.read q.content = some doc) (hp : PlainMessage doc hdr x)
    (hh : ∀ h, hdr = some h → ∀ y ∈ h.kids, HeaderOk W (W.disp d) y) (hx : (W.disp d).validator x = .ok ())
    (ha : HasAction (W.disp d).service q.environ action)
    (hno : ∀ m ∈ (W.disp d).service.methods, (W.method m).soapAction ≠ action) (hok : XmlOk action) :
    ∃ resp, outcome (dispatch W d r) s = .ok resp ∧ resp.status = 500 ∧
      resp.content = .bytes (W.write (faultDoc (W.disp d).service.version (clientCode (W.disp d).service.version)
        (py"Invalid SOAP action: " ++ action) none)) ∧
      happened (dispatch W d r) s = [] := by
  rw [client_code]
  have hq2 := begin_req (d := d) hq
  have hn : ∃ q a t k, x = .elem q a t k := by
    obtain ⟨_, _, _, _, _, _, _, _, _, _, ⟨q, a, t, k, h, _⟩, _⟩ := hp
    exact ⟨q, a, t, k, h⟩
  refine rejected_answer (a := none) hq hpost hmid h1 h2 hD (callMethod_unhandled hq2 rfl
    (readAndValidate_plain_ok hD hr hp hh hx) ?_) (client_ok _) (XmlOk.append (by unfold XmlOk; decide) hok)
  obtain ⟨qx, ax, tx, kx, rfl⟩ := hn
  simp only [findHandler, rootTag, Except_ok_bind]
  rw [if_pos (truthy_iff.2 ⟨action, ha.1, ha.2⟩), ha.1]
  have : (W.disp d).service.methods.find? (fun m => decide (some (W.method m).soapAction = some action)) = none :=
    List.find?_eq_none.2 fun m hm => by simpa using hno m hm
  rw [this]
  rfl

/-- No method is meant by the root tag, not even by substitution: its element is not declared by the service's schemas
or the head of its group is no method's input. -/
def Unhandled (W : World) (S : Service) (root : Str) : Prop :=
  (∀ m ∈ S.methods, (W.method m).input ≠ .name root) ∧
  ((∀ s ∈ S.schemas, (W.schema s).elements.get? root = none) ∨
   ∃ s e g n, First (fun s => ∃ e, (W.schema s).elements.get? root = some e) S.schemas s ∧
      (W.schema s).elements.get? root = some e ∧ e.substitutionGroup = some g ∧ AfterColon g n ∧
      ∀ m ∈ S.methods, (W.method m).input ≠ .name n)

/-- **C39 (unknown root tag).** A valid message without SOAP action whose root tag means no method is answered with a
Client fault; nothing else happens. -/
theorem C39_unknown (W : World) (d : DispId) (r : ReqId) (s : State) (q : Req) (doc x : Xml) (hdr : Option Xml)
    (root : Str) (hq : s.reqs[r]? = some q) (hpost : IsPost q) (hmid : (W.disp d).middlewares = [])
    (h1 : (W.disp d).hooks.get? py"soap-request" = none) (h2 : (W.disp d).hooks.get? py"soap-response" = none)
    (hD : 4 ≤ W.depth) (hr : W.read q.content = some doc) (hp : PlainMessage doc hdr x)
    (hh : ∀ h, hdr = some h → ∀ y ∈ h.kids, HeaderOk W (W.disp d) y) (hx : (W.disp d).validator x = .ok ())
    (hn : x.Named root) (ha : ∀ a, ¬ HasAction (W.disp d).service q.environ a)
    (hno : Unhandled W (W.disp d).service root) (hok : XmlOk root) :
    ∃ resp, outcome (dispatch W d r) s = .ok resp ∧ resp.status = 500 ∧
      resp.content = .bytes (W.write (faultDoc (W.disp d).service.version (clientCode (W.disp d).service.version)
        (py"Missing SOAP action and invalid root tag: " ++ root) none)) ∧
      happened (dispatch W d r) s = [] := by
  rw [client_code]
  have hq2 := begin_req (d := d) hq
  refine rejected_answer (a := none) hq hpost hmid h1 h2 hD (callMethod_unhandled hq2 rfl
    (readAndValidate_plain_ok hD hr hp hh hx) ?_) (client_ok _) (XmlOk.append (by unfold XmlOk; decide) hok)
  obtain ⟨qx, ax, tx, kx, rfl, rfl⟩ := hn
  simp only [findHandler, rootTag, Except_ok_bind]
  rw [if_neg (fun h => by obtain ⟨a, h1, h2⟩ := truthy_iff.1 h; exact ha a ⟨h1, h2⟩), byInput_eq_none hno.1]
  simp only
  rcases hno.2 with h | ⟨s, e, g, n, hs, he, hg, hn, hm⟩
  · have : ownElement W (W.disp d).service qx.loc = none := List.findSome?_eq_none_iff.2 h
    rw [this]
  · have : ownElement W (W.disp d).service qx.loc = some e := first_findSome hs he
    rw [this]
    simp only [bySubstitution, hg]
    cases (W.disp d).service.methods with
    | nil => rfl
    | cons m0 ms =>
      simp only
      rw [AfterColon.unique (lastPart_after g) hn, byInput_eq_none hm]
      rfl

/-- **C39 (exception).** If the root tag is declared by the service's schemas without substitution group, the client
gets no fault: an AttributeError escapes (the code splits None). -/
theorem C39_no_group (W : World) (d : DispId) (r : ReqId) (s : State) (q : Req) (doc x : Xml) (hdr : Option Xml)
    (root : Str) (sc : SchemaId) (e : SElem) (hq : s.reqs[r]? = some q) (hpost : IsPost q)
    (hmid : (W.disp d).middlewares = []) (h1 : (W.disp d).hooks.get? py"soap-request" = none)
    (hD : 4 ≤ W.depth) (hr : W.read q.content = some doc) (hp : PlainMessage doc hdr x)
    (hh : ∀ h, hdr = some h → ∀ y ∈ h.kids, HeaderOk W (W.disp d) y) (hx : (W.disp d).validator x = .ok ())
    (hn : x.Named root) (ha : ∀ a, ¬ HasAction (W.disp d).service q.environ a)
    (hne : (W.disp d).service.methods ≠ [])
    (hno : ∀ m ∈ (W.disp d).service.methods, (W.method m).input ≠ .name root)
    (hs : First (fun s => ∃ e, (W.schema s).elements.get? root = some e) (W.disp d).service.schemas sc)
    (he : (W.schema sc).elements.get? root = some e) (hg : e.substitutionGroup = none) :
    outcome (dispatch W d r) s = .error .attributeError ∧ happened (dispatch W d r) s = [] := by
  have hq2 := begin_req (d := d) hq
  have hi : inner W d r q s = (.error .attributeError, s.begin d r q) := by
    unfold inner
    rw [hmid]
    refine callMethod_unhandled hq2 rfl (readAndValidate_plain_ok hD hr hp hh hx) ?_
    obtain ⟨qx, ax, tx, kx, rfl, rfl⟩ := hn
    simp only [findHandler, rootTag, Except_ok_bind]
    rw [if_neg (fun h => by obtain ⟨a, h1, h2⟩ := truthy_iff.1 h; exact ha a ⟨h1, h2⟩), byInput_eq_none hno]
    simp only
    have : ownElement W (W.disp d).service qx.loc = some e := first_findSome hs he
    rw [this]
    simp only [bySubstitution, hg]
    cases h : (W.disp d).service.methods with
    | nil => exact absurd h hne
    | cons m0 ms => rfl
  have := C43_propagates W d r s q .attributeError hq hpost h1 (by rw [hi]) (by intro c m a; simp)
  unfold outcome happened
  rw [this, hi]
  exact ⟨rfl, by show s.trace.drop s.trace.length = []; simp⟩

/-! ### C49: validation of header and body -/

/-- A header child that makes the dispatcher reject the message: an invalid element of WS-Addressing or, in strict mode,
any invalid element. -/
def HeaderBad (W : World) (d : Dispatcher) (x : Xml) (e : Exn) : Prop :=
  ∃ q a t k, x = .elem q a t k ∧
    ((q.ns = some nsWsa ∧ W.wsaValid x = .error e) ∨
      (q.ns ≠ some nsWsa ∧ d.strict = true ∧ d.validator x = .error e))

theorem eachE_first_error {α} {f : α → Except Exn Unit} {pre post : List α} {a : α} {e : Exn}
    (h1 : ∀ b ∈ pre, f b = .ok ()) (h2 : f a = .error e) : eachE f (pre ++ a :: post) = .error e := by
  induction pre with
  | nil => simp only [List.nil_append, eachE, h2]; rfl
  | cons b pre ih =>
    simp only [List.cons_append, eachE, h1 b (by simp), Except_ok_bind]
    exact ih fun c hc => h1 c (by simp [hc])

theorem asClientFault_invalid {W : World} {v : Version} {e : Exn} (h : Invalid e) :
    asClientFault W v (.error e) = .error (.soapError v.client (W.describe e) none) := by
  simp [asClientFault, isInvalid_iff.2 h]

/-- **C49 (rejected).** The first header element that fails validation - one of WS-Addressing always, any other in
strict mode - makes the dispatcher answer with a Client fault; nothing else happens, in particular no method runs. -/
theorem C49_rejected (W : World) (d : DispId) (r : ReqId) (s : State) (q : Req) (doc x h y : Xml)
    (pre post : List Xml) (e : Exn) (hq : s.reqs[r]? = some q) (hpost : IsPost q) (hmid : (W.disp d).middlewares = [])
    (h1 : (W.disp d).hooks.get? py"soap-request" = none) (h2 : (W.disp d).hooks.get? py"soap-response" = none)
    (hD : 4 ≤ W.depth) (hr : W.read q.content = some doc) (hp : PlainMessage doc (some h) x)
    (hk : h.kids = pre ++ y :: post) (hpre : ∀ z ∈ pre, HeaderOk W (W.disp d) z)
    (hy : HeaderBad W (W.disp d) y e) (he : Invalid e) (hok : XmlOk (W.describe e)) :
    ∃ resp, outcome (dispatch W d r) s = .ok resp ∧ resp.status = 500 ∧
      resp.content = .bytes (W.write (faultDoc (W.disp d).service.version (clientCode (W.disp d).service.version)
        (W.describe e) none)) ∧
      happened (dispatch W d r) s = [] := by
  rw [client_code]
  have hq2 := begin_req (d := d) hq
  obtain ⟨k, hk'⟩ : ∃ k, W.depth = k + 4 := ⟨W.depth - 4, by omega⟩
  refine rejected_answer (a := none) hq hpost hmid h1 h2 hD (callMethod_rejected hq2 rfl ?_) (client_ok _) hok
  rw [readAndValidate_plain hk' hr hp]
  have hv : validateHeader W (W.disp d) (headerVal (some h)) = .error e := by
    have : validateHeader W (W.disp d) (headerVal (some h)) = eachE (validateHeaderChild W (W.disp d)) h.kids := rfl
    rw [this, hk]
    refine eachE_first_error (fun b hb => headerChild_iff.2 (hpre b hb)) ?_
    obtain ⟨qy, ay, ty, ky, rfl, hy⟩ := hy
    unfold validateHeaderChild
    simp only
    rcases hy with ⟨g1, g2⟩ | ⟨g1, g2, g3⟩
    · rw [if_pos g1, g2]
    · rw [if_neg g1, g3]
      simp [unlessStrict, g2]
  rw [hv]
  show (do asClientFault W (W.disp d).service.version (.error e); _) = _
  rw [asClientFault_invalid he]
  rfl

/-- **C49 (body).** An invalid body is answered with a Client fault, in strict mode and otherwise. -/
theorem C49_body (W : World) (d : DispId) (r : ReqId) (s : State) (q : Req) (doc x : Xml) (hdr : Option Xml) (e : Exn)
    (hq : s.reqs[r]? = some q) (hpost : IsPost q) (hmid : (W.disp d).middlewares = [])
    (h1 : (W.disp d).hooks.get? py"soap-request" = none) (h2 : (W.disp d).hooks.get? py"soap-response" = none)
    (hD : 4 ≤ W.depth) (hr : W.read q.content = some doc) (hp : PlainMessage doc hdr x)
    (hh : ∀ h, hdr = some h → ∀ y ∈ h.kids, HeaderOk W (W.disp d) y) (hx : (W.disp d).validator x = .error e)
    (he : Invalid e) (hok : XmlOk (W.describe e)) :
    ∃ resp, outcome (dispatch W d r) s = .ok resp ∧ resp.status = 500 ∧
      resp.content = .bytes (W.write (faultDoc (W.disp d).service.version (clientCode (W.disp d).service.version)
        (W.describe e) none)) ∧
      happened (dispatch W d r) s = [] := by
  rw [client_code]
  have hq2 := begin_req (d := d) hq
  obtain ⟨k, hk'⟩ : ∃ k, W.depth = k + 4 := ⟨W.depth - 4, by omega⟩
  refine rejected_answer (a := none) hq hpost hmid h1 h2 hD (callMethod_rejected hq2 rfl ?_) (client_ok _) hok
  rw [readAndValidate_plain hk' hr hp, validateHeader_iff.2 hh, Except_ok_bind, hx, asClientFault_invalid he]
  rfl

/-- **C49 (malformed).** Content that is not well-formed XML is answered with a Client fault. -/
theorem C49_malformed (W : World) (d : DispId) (r : ReqId) (s : State) (q : Req)
    (hq : s.reqs[r]? = some q) (hpost : IsPost q) (hmid : (W.disp d).middlewares = [])
    (h1 : (W.disp d).hooks.get? py"soap-request" = none) (h2 : (W.disp d).hooks.get? py"soap-response" = none)
    (hD : 4 ≤ W.depth) (hr : W.read q.content = none) (hok : XmlOk (W.describe .xmlSyntaxError)) :
    ∃ resp, outcome (dispatch W d r) s = .ok resp ∧ resp.status = 500 ∧
      resp.content = .bytes (W.write (faultDoc (W.disp d).service.version (clientCode (W.disp d).service.version)
        (W.describe .xmlSyntaxError) none)) ∧
      happened (dispatch W d r) s = [] := by
  rw [client_code]
  have hq2 := begin_req (d := d) hq
  refine rejected_answer (a := none) hq hpost hmid h1 h2 hD (callMethod_rejected hq2 rfl ?_) (client_ok _) hok
  unfold readAndValidate parseSoapContent
  simp only [hr]
  rfl

/-- **C49 (non-strict).** In non-strict mode elements outside WS-Addressing never stand in the way: if the header
consists of elements that are valid or invalid, and the message is otherwise fine, the method is called. -/
theorem C49_lax (W : World) (d : DispId) (r : ReqId) (s : State) (q : Req) (doc x h : Xml)
    (root : Str) (m : MethodId) (hv v : Val) (f : ReqId → Val → Prog Empty Ret) (hq : s.reqs[r]? = some q)
    (hpost : IsPost q) (hmid : (W.disp d).middlewares = []) (hhook : (W.disp d).hooks.get? py"soap-request" = none)
    (hD : 4 ≤ W.depth) (hr : W.read q.content = some doc) (hp : PlainMessage doc (some h) x)
    (hlax : (W.disp d).strict = false)
    (hh : ∀ y ∈ h.kids, ∃ qy a t k, y = .elem qy a t k ∧ qy.ns ≠ some nsWsa ∧
      ((W.disp d).validator y = .ok () ∨ ∃ e, Invalid e ∧ (W.disp d).validator y = .error e))
    (hx : (W.disp d).validator x = .ok ())
    (hn : x.Named root) (hm : Handles W (W.disp d).service q.environ root m)
    (hhv : ReadsHeader W (W.disp d).service m (some h) hv) (hv' : ReadsInput W (W.disp d).service m x v)
    (hf : (W.method m).function = some f) :
    (happened (dispatch W d r) s).head? =
      some (.method m r { q with dispatcher := some d, method := some m, soapHeader := hv, soapBody := v } v) := by
  refine C38_C39_called W d r s q doc x (some h) root m hv v f hq hpost hmid hhook hD hr hp ?_ hx hn hm hhv hv' hf
  intro h' hh' y hy
  injection hh' with hh'
  subst hh'
  obtain ⟨qy, a, t, k, rfl, h3, h4⟩ := hh y hy
  refine ⟨qy, a, t, k, rfl, fun h => absurd h h3, fun _ => ?_⟩
  rcases h4 with h4 | h4
  · exact .inl h4
  · exact .inr ⟨hlax, h4⟩

/-! ### Examples -/

namespace ExS

theorem plain1 : PlainMessage (envelope [bodyElem (body py"sayHello")]) none (body py"sayHello") :=
  ⟨_, _, _, _, _, _, py"sayHello", rfl, rfl, by decide, ⟨_, _, _, _, rfl, rfl⟩, by decide, by decide, by simp⟩
theorem plain2 : PlainMessage (envelope [bodyElem (body py"sayHi")]) none (body py"sayHi") :=
  ⟨_, _, _, _, _, _, py"sayHi", rfl, rfl, by decide, ⟨_, _, _, _, rfl, rfl⟩, by decide, by decide, by simp⟩
theorem plain3 : PlainMessage (envelope [headerElem [extra], bodyElem (body py"sayHello")]) (some (headerElem [extra]))
    (body py"sayHello") :=
  ⟨_, _, _, _, _, _, py"sayHello", rfl, rfl, by decide, ⟨_, _, _, _, rfl, rfl⟩, by decide, by decide, by
    intro h hh; injection hh with hh; subst hh; exact ⟨_, _, _, _, rfl, rfl, by decide⟩⟩
theorem plain4 : PlainMessage (envelope [bodyElem (body py"sayHelloResponse")]) none (body py"sayHelloResponse") :=
  ⟨_, _, _, _, _, _, py"sayHelloResponse", rfl, rfl, by decide, ⟨_, _, _, _, rfl, rfl⟩, by decide, by decide, by simp⟩
theorem plain5 : PlainMessage (envelope [bodyElem (body py"sayGoodbye")]) none (body py"sayGoodbye") :=
  ⟨_, _, _, _, _, _, py"sayGoodbye", rfl, rfl, by decide, ⟨_, _, _, _, rfl, rfl⟩, by decide, by decide, by simp⟩

/-- The value read from the example bodies. -/
def input (tag : Str) : Val := .inst 8 [(py"name", .atom (.str py"Bob"))] (some (body tag))

theorem reads (tag : Str) (b : Bool) : ReadsInput (world b) (disp b).service 0 (body tag) (input tag) :=
  .element (n := py"sayHello") rfl rfl rfl

/-- A request without SOAP action, routed by the root tag. -/
example : (happened (dispatch (world true) 0 0) { reqs := [request py"POST" [1]] }).head? =
    some (.method 0 0 { request py"POST" [1] with
      dispatcher := some 0, method := some 0, soapBody := input py"sayHello" } (input py"sayHello")) :=
  C38_C39_called (world true) 0 0 _ _ _ _ none py"sayHello" 0 Val.none _ _ rfl rfl rfl rfl (by decide) rfl plain1 (by simp) rfl
    ⟨_, _, _, _, rfl, rfl⟩ (.input (fun a h => by cases h.1) ⟨[], [], rfl, rfl, by simp⟩) .missing (reads _ true) rfl

/-- The same by substitution group. -/
example : (happened (dispatch (world true) 0 0) { reqs := [request py"POST" [2]] }).head? =
    some (.method 0 0 { request py"POST" [2] with
      dispatcher := some 0, method := some 0, soapBody := input py"sayHi" } (input py"sayHi")) :=
  C38_C39_called (world true) 0 0 _ _ _ _ none py"sayHi" 0 Val.none _ _ rfl rfl rfl rfl (by decide) rfl plain2 (by simp) rfl
    ⟨_, _, _, _, rfl, rfl⟩ (.substitution (s := 0) (g := py"sns:sayHello") (n := py"sayHello") (fun a h => by cases h.1)
      (by intro m _; show hello.input ≠ _; decide) ⟨[], [], rfl, ⟨_, rfl⟩, by simp⟩ rfl rfl ⟨by decide, .inr ⟨py"sns", rfl⟩⟩
      ⟨[], [], rfl, rfl, by simp⟩) .missing (reads _ true) rfl

/-- And by SOAP action, whatever the root tag. -/
example : (happened (dispatch (world true) 0 0)
    { reqs := [request py"POST" [4] [(py"SOAPACTION", py"\"urn:x/hello\"")]] }).head? =
    some (.method 0 0 { request py"POST" [4] [(py"SOAPACTION", py"\"urn:x/hello\"")] with
      dispatcher := some 0, method := some 0, soapBody := input py"sayHelloResponse" } (input py"sayHelloResponse")) :=
  C38_C39_called (world true) 0 0 _ _ _ _ none py"sayHelloResponse" 0 Val.none _ _ rfl rfl rfl rfl (by decide) rfl plain4
    (by simp) rfl ⟨_, _, _, _, rfl, rfl⟩ (.action (a := py"urn:x/hello") ⟨by decide +kernel, by decide⟩
      ⟨[], [], rfl, rfl, by simp⟩) .missing (reads _ true) rfl

/-- An unknown action, and an unknown root tag. -/
example : ∃ resp, outcome (dispatch (world true) 0 0)
    { reqs := [request py"POST" [1] [(py"SOAPACTION", py"urn:x/bye")]] } = .ok resp ∧ resp.status = 500 := by
  obtain ⟨resp, h1, h2, _⟩ := C38_unknown (world true) 0 0
    { reqs := [request py"POST" [1] [(py"SOAPACTION", py"urn:x/bye")]] } _ _ _ none py"urn:x/bye" rfl rfl rfl rfl rfl
    (by decide) rfl plain1 (by simp) rfl ⟨by decide +kernel, by decide⟩
    (by intro m _; show hello.soapAction ≠ _; decide) (by unfold XmlOk; decide)
  exact ⟨resp, h1, h2⟩
example : ∃ resp, outcome (dispatch (world true) 0 0) { reqs := [request py"POST" [5]] } = .ok resp ∧
    resp.status = 500 := by
  obtain ⟨resp, h1, h2, _⟩ := C39_unknown (world true) 0 0 { reqs := [request py"POST" [5]] } _ _ _ none py"sayGoodbye"
    rfl rfl rfl rfl rfl (by decide) rfl plain5 (by simp) rfl ⟨_, _, _, _, rfl, rfl⟩ (fun a h => by cases h.1)
    ⟨by intro m _; show hello.input ≠ _; decide, .inl (by intro s _; rfl)⟩ (by unfold XmlOk; decide)
  exact ⟨resp, h1, h2⟩

/-- An element that is declared, but no input: AttributeError. -/
example : outcome (dispatch (world true) 0 0) { reqs := [request py"POST" [4]] } = .error .attributeError :=
  (C39_no_group (world true) 0 0 { reqs := [request py"POST" [4]] } _ _ _ none py"sayHelloResponse" 0 _
    rfl rfl rfl rfl (by decide) rfl plain4 (by simp) rfl ⟨_, _, _, _, rfl, rfl⟩ (fun a h => by cases h.1) (by decide)
    (by intro m _; show hello.input ≠ _; decide) ⟨[], [], rfl, ⟨_, rfl⟩, by simp⟩ rfl rfl).1

/-- A header element nobody knows is rejected in strict mode only. -/
example : ∃ resp, outcome (dispatch (world true) 0 0) { reqs := [request py"POST" [3]] } = .ok resp ∧
    resp.status = 500 := by
  obtain ⟨resp, h1, h2, _⟩ := C49_rejected (world true) 0 0 { reqs := [request py"POST" [3]] } _ _ _ _ extra [] []
    .documentInvalid rfl rfl rfl rfl rfl (by decide) rfl plain3 rfl (by simp)
    ⟨_, _, _, _, rfl, .inr ⟨by decide, rfl, by decide⟩⟩ (.inl rfl) (by unfold XmlOk; decide)
  exact ⟨resp, h1, h2⟩
example : (happened (dispatch (world false) 0 0) { reqs := [request py"POST" [3]] }).head? =
    some (.method 0 0 { request py"POST" [3] with
      dispatcher := some 0, method := some 0, soapBody := input py"sayHello" } (input py"sayHello")) :=
  C49_lax (world false) 0 0 _ _ _ _ (headerElem [extra]) py"sayHello" 0 Val.none _ _ rfl rfl rfl rfl (by decide) rfl plain3
    rfl (by intro y hy; obtain rfl := List.mem_singleton.1 hy; exact ⟨_, _, _, _, rfl, by decide,
      .inr ⟨.documentInvalid, .inl rfl, by decide⟩⟩) rfl
    ⟨_, _, _, _, rfl, rfl⟩ (.input (fun a h => by cases h.1) ⟨[], [], rfl, rfl, by simp⟩) (.unknown rfl rfl)
    (reads _ false) rfl

end ExS

end Soapfish
