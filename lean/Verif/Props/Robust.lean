import Verif.RobustLemmas
/-
C95: which requests a dispatcher answers, and which exceptions escape from it.
-/
namespace Soapfish

section
variable {W : World} {d : DispId} {r : ReqId} {s : State} {q : Req}

/-! ### What a call of the method can come to -/

/-- Why a call failed before the function was called. -/
inductive Stops (W : World) (D : Dispatcher) (q : Req) (e : Exn) : Prop where
  | read : readAndValidate W D q.content = .error e → Stops W D q e
  | handler {h x} : readAndValidate W D q.content = .ok (h, x) → findHandler W D.service q.environ x = .error e →
      Stops W D q e
  | header {h x m} : readAndValidate W D q.content = .ok (h, x) → findHandler W D.service q.environ x = .ok m →
      parseHeaderPart W D.service (W.method m) h = .error e → Stops W D q e
  | input {h x m} : readAndValidate W D q.content = .ok (h, x) → findHandler W D.service q.environ x = .ok m →
      parseInput W D.service (W.method m) x = .error e → Stops W D q e
  | function {h x m} : readAndValidate W D q.content = .ok (h, x) → findHandler W D.service q.environ x = .ok m →
      (W.method m).function = none → e = .typeError → Stops W D q e

theorem callMethod_cases (hq : s.reqs[r]? = some q) (hd : q.dispatcher = some d) :
    (∃ e s' q', callMethod W r s = (.error e, s') ∧ s'.reqs[r]? = some q' ∧ q'.dispatcher = some d ∧
      Stops W (W.disp d) q e) ∨
    ∃ h x m hv v f, readAndValidate W (W.disp d) q.content = .ok (h, x) ∧
      findHandler W (W.disp d).service q.environ x = .ok m ∧
      parseInput W (W.disp d).service (W.method m) x = .ok v ∧ (W.method m).function = some f ∧
      callMethod W r s = M.bind (f r v).run' (fun ret => M.pure (.response ret.toResponse))
        { reqs := s.reqs.set r { q with method := some m, soapHeader := hv, soapBody := v },
          trace := s.trace ++ [.method m r { q with method := some m, soapHeader := hv, soapBody := v } v] } := by
  have hlt : r < s.reqs.length := (List.getElem?_eq_some_iff.1 hq).1
  have hcall : ∀ {e s'}, prepareRequest W (W.disp d) r s = (.error e, s') → callMethod W r s = (.error e, s') := by
    intro e s' h
    unfold callMethod
    simp only [M_bind]
    rw [M.bind_ok (getReq_some hq), hd, M.optE_some, M.bind_error h]
  cases h1 : readAndValidate W (W.disp d) q.content with
  | error e => exact .inl ⟨e, s, q, callMethod_rejected hq hd h1, hq, hd, .read h1⟩
  | ok hx =>
  obtain ⟨h, x⟩ := hx
  cases h2 : findHandler W (W.disp d).service q.environ x with
  | error e => exact .inl ⟨e, s, q, callMethod_unhandled hq hd h1 h2, hq, hd, .handler h1 h2⟩
  | ok m =>
  cases h3 : parseHeaderPart W (W.disp d).service (W.method m) h with
  | error e =>
    refine .inl ⟨e, _, { q with method := some m }, hcall (s' := { s with reqs := s.reqs.set r { q with method := some m } }) ?_,
      by simp [hlt], hd, .header h1 h2 h3⟩
    unfold prepareRequest
    simp only [M_bind]
    rw [M.bind_ok (getReq_some hq), M.lift_ok h1]
    simp only
    rw [M.lift_ok h2, setReq_bind, M.lift_error h3]
  | ok hv =>
  cases h4 : parseInput W (W.disp d).service (W.method m) x with
  | error e =>
    refine .inl ⟨e, _, { q with method := some m, soapHeader := hv },
      hcall (s' := { s with reqs := s.reqs.set r { q with method := some m, soapHeader := hv } }) ?_,
      by simp [hlt], hd, .input h1 h2 h4⟩
    unfold prepareRequest
    simp only [M_bind]
    rw [M.bind_ok (getReq_some hq), M.lift_ok h1]
    simp only
    rw [M.lift_ok h2, setReq_bind, M.lift_ok h3, setReq_bind, M.lift_error h4]
    simp
  | ok v =>
  have hprep : prepareRequest W (W.disp d) r s =
      (.ok (), { s with reqs := s.reqs.set r { q with method := some m, soapHeader := hv, soapBody := v } }) := by
    unfold prepareRequest
    simp only [M_bind]
    rw [M.bind_ok (getReq_some hq), M.lift_ok h1]
    simp only
    rw [M.lift_ok h2, setReq_bind, M.lift_ok h3, setReq_bind, M.lift_ok h4]
    simp [setReq]
  cases h5 : (W.method m).function with
  | none =>
    refine .inl ⟨.typeError, { s with reqs := s.reqs.set r { q with method := some m, soapHeader := hv, soapBody := v } }, { q with method := some m, soapHeader := hv, soapBody := v }, ?_, ?_, hd,
      .function h1 h2 h5 rfl⟩
    · unfold callMethod
      simp only [M_bind]
      rw [M.bind_ok (getReq_some hq), hd, M.optE_some]
      rw [M.bind_ok hprep, M.bind_ok (getReq_some (q := { q with method := some m, soapHeader := hv, soapBody := v })
        (by simp [hlt])), M.optE_some, h5]
      simp only [hd]
      rfl
    · simp [hlt]
  | some f =>
    refine .inr ⟨h, x, m, hv, v, f, rfl, h2, h4, h5, ?_⟩
    unfold callMethod
    simp only [M_bind]
    rw [M.bind_ok (getReq_some hq), hd, M.optE_some]
    rw [M.bind_ok hprep, M.bind_ok (getReq_some (q := { q with method := some m, soapHeader := hv, soapBody := v })
      (by simp [hlt])), M.optE_some, h5, M.optE_some, hd]
    rfl

/-! ### Why it fails -/

theorem findHandler_fails {S : Service} {env : Env} {x : Xml} {root : Str} {e : Exn} (hn : x.Named root)
    (h : findHandler W S env x = .error e) :
    (∃ a, HasAction S env a ∧ e = .soapError S.version.client (py"Invalid SOAP action: " ++ a) none) ∨
    e = .soapError S.version.client (py"Missing SOAP action and invalid root tag: " ++ root) none ∨
    (e = .attributeError ∧ (∀ a, ¬ HasAction S env a) ∧ (∀ m ∈ S.methods, (W.method m).input ≠ .name root) ∧
      ∃ s ∈ S.schemas, ∃ el, (W.schema s).elements.get? root = some el ∧ el.substitutionGroup = none) := by
  obtain ⟨qn, a, t, k, rfl, rfl⟩ := hn
  simp only [findHandler, rootTag, Except_ok_bind] at h
  split at h
  · next ha =>
    obtain ⟨act, h1, h2⟩ := truthy_iff.1 ha
    refine .inl ⟨act, ⟨h1, h2⟩, ?_⟩
    rw [h1] at h
    unfold optE at h
    split at h
    · cases h
    · injection h with h; exact h.symm
  · next ha =>
    have hno : ∀ a, ¬ HasAction S env a := fun a h => ha (truthy_iff.2 ⟨a, h.1, h.2⟩)
    refine .inr ?_
    split at h
    · cases h
    · next hb =>
      split at h
      · next el hel =>
        unfold ownElement at hel
        obtain ⟨s, hs, he⟩ := findSome_first hel
        obtain ⟨pre, post, e1, _, _⟩ := hs
        unfold bySubstitution at h
        split at h
        · injection h with h; exact .inl h.symm
        · next hg =>
          injection h with h
          exact .inr ⟨h.symm, hno, byInput_none hb, s, by rw [e1]; simp, el, he, hg⟩
        · unfold optE at h
          split at h
          · cases h
          · injection h with h; exact .inl h.symm
      · injection h with h; exact .inl h.symm

theorem getA_header {hv bv : Val} {x : Option Xml} :
    (Val.inst cEnvelope [(py"Header", hv), (py"Body", bv)] x).getA py"Header" = .ok hv := rfl
theorem getA_body {hv bv : Val} {x : Option Xml} :
    (Val.inst cEnvelope [(py"Header", hv), (py"Body", bv)] x).getA py"Body" = .ok bv := rfl

/-- Validation of a header fails as specified. -/
theorem validateHeader_fails {D : Dispatcher} (hv : Validates D.validator) (hw : Validates W.wsaValid) {h : Xml} {e : Exn}
    (hk : ∀ y ∈ h.kids, ∃ n, y.Named n) (he : validateHeader W D (.inst cHeader [] (some h)) = .error e) : Invalid e := by
  have : validateHeader W D (.inst cHeader [] (some h)) = eachE (validateHeaderChild W D) h.kids := rfl
  rw [this] at he
  obtain ⟨y, hy, he⟩ := eachE_error he
  obtain ⟨n, qn, a, t, k, rfl, _⟩ := hk y hy
  simp only [validateHeaderChild] at he
  split at he
  · rcases hw (.elem qn a t k) _ ⟨qn, a, t, k, rfl, rfl⟩ with h' | ⟨e', hi, h'⟩
    · rw [h'] at he; cases he
    · rw [h'] at he; injection he with he; exact he ▸ hi
  · rcases hv (.elem qn a t k) _ ⟨qn, a, t, k, rfl, rfl⟩ with h' | ⟨e', hi, h'⟩
    · rw [h'] at he; cases he
    · rw [h'] at he
      unfold unlessStrict at he
      dsimp only at he
      split at he
      · cases he
      · injection he with he; exact he ▸ hi

/-- Reading an ordinary document: a Client fault, or everything is as it should be. -/
theorem readAndValidate_ordinary {D : Dispatcher} {content : Bytes} {doc : Xml} (hD : 4 ≤ W.depth)
    (hv : Validates D.validator) (hw : Validates W.wsaValid) (hr : W.read content = some doc) (ho : Ordinary doc) :
    (∃ m, readAndValidate W D content = .error (.soapError D.service.version.client m none) ∧
      (m = py"Missing SOAP body" ∨ ∃ e, Invalid e ∧ m = W.describe e)) ∨
    ∃ hdr x, readAndValidate W D content = .ok (headerVal hdr, x) ∧ HeadersOk W D hdr := by
  obtain ⟨k, hk⟩ : ∃ k, W.depth = k + 4 := ⟨W.depth - 4, by omega⟩
  obtain ⟨hv', bv, hp, hh, hb⟩ := parse_readable (v := D.service.version) (U := W.user) (k := k) ho.readable
  cases hb with
  | none hno =>
    refine .inl ⟨_, ?_, .inl rfl⟩
    simp only [readAndValidate, parseSoapContent, hr, World.table, hk, hp, Except_ok_bind, getA_body]
    rfl
  | @some b hb =>
  obtain ⟨x, n, hx, hn⟩ := ho.body b hb
  have hc : bodyContent (bodyObj b) = .ok x := by
    unfold bodyContent bodyObj
    simp only [Val.element, Except_ok_bind]
    cases hkids : b.kids with
    | nil => rw [hkids] at hx; cases hx
    | cons y ys => rw [hkids] at hx; injection hx with hx; subst hx; rfl
  have hps : parseSoapContent W D.service content =
      .ok (.inst cEnvelope [(py"Header", hv'), (py"Body", bodyObj b)] (some doc)) := by
    simp only [parseSoapContent, hr, World.table, hk, hp, Except_ok_bind, getA_body]
    rfl
  have hrv : readAndValidate W D content = (do
      asClientFault W D.service.version (do
        validateHeader W D hv'
        validateElement D.validator x)
      .ok (hv', x)) := by
    simp only [readAndValidate, hps, validateInput, Except_ok_bind, getA_body, getA_header, hc]
  have hvx : validateElement D.validator x = D.validator x := by
    obtain ⟨qn, a, t, k, rfl, _⟩ := hn
    rfl
  have key : ∀ hdr, hv' = headerVal hdr →
      (∀ e, validateHeader W D hv' = .error e → Invalid e) →
      (∃ m, readAndValidate W D content = .error (.soapError D.service.version.client m none) ∧
        (m = py"Missing SOAP body" ∨ ∃ e, Invalid e ∧ m = W.describe e)) ∨
      ∃ hdr x, readAndValidate W D content = .ok (headerVal hdr, x) ∧ HeadersOk W D hdr := by
    intro hdr hhdr hfail
    have hbad : ∀ e, (do validateHeader W D hv'; validateElement D.validator x) = .error e → Invalid e →
        readAndValidate W D content = .error (.soapError D.service.version.client (W.describe e) none) := by
      intro e he hi
      rw [hrv, he]
      unfold asClientFault
      simp only [isInvalid_iff.2 hi, if_true]
      rfl
    cases hh1 : validateHeader W D hv' with
    | error e => exact .inl ⟨_, hbad e (by rw [hh1]; rfl) (hfail e hh1), .inr ⟨e, hfail e hh1, rfl⟩⟩
    | ok u =>
      rcases hv x n hn with h | ⟨e, hi, h⟩
      · refine .inr ⟨hdr, x, ?_, validateHeader_iff.1 (by rw [← hhdr, hh1])⟩
        rw [hrv, hh1, ← hhdr]
        simp only [Except_ok_bind, hvx, h]
        rfl
      · exact .inl ⟨_, hbad e (by rw [hh1, hvx]; exact h) hi, .inr ⟨e, hi, rfl⟩⟩
  cases hh with
  | none hno => exact key none rfl (fun e he => by cases he)
  | @nil h hl hi => exact absurd hi (ho.header h hl).1
  | @some h hl hi => exact key (some h) rfl (fun e he => validateHeader_fails hv hw (ho.header h hl).2 he)

/-! ### Answers -/

theorem finish_writes {D : Dispatcher} {m : MethodId} {ret : Ret} (h : CanWrite W D.service m ret) :
    ∃ resp b, finishResponse W D (some m) ret.toResponse = .ok resp ∧ resp.content = .bytes b := by
  cases h with
  | @fault c msg hd doc hf hx =>
    obtain ⟨resp, a, ho, hb, hh⟩ := catch_fault hf
    have ho : resp = ret.toResponse := by injection ho with ho; exact ho.symm
    subst ho
    rw [finish_fault (m := some m) hb, hh, hx]
    exact ⟨_, _, rfl, rfl⟩
  | value hret ht hx =>
    subst hret
    unfold finishResponse
    simp only [Ret.toResponse, mkResponse, answerTag, ht, Except_ok_bind, hx]
    exact ⟨_, _, rfl, rfl⟩
  | response hret hb ht hx =>
    subst hret
    unfold finishResponse
    simp only [Ret.toResponse, hb, answerTag, ht, Except_ok_bind, hx]
    exact ⟨_, _, rfl, rfl⟩

theorem answers_value {s' : State} {q' : Req} {o : Except Exn Ret} {ret : Ret} {m : MethodId}
    (hq : s.reqs[r]? = some q) (hp : IsPost q) (hB : Bare W d)
    (hi : inner W d r q s = (o, s')) (ho : catchSoapError o = .ok ret.toResponse) (hq' : s'.reqs[r]? = some q')
    (hm : q'.method = some m) (hw : CanWrite W (W.disp d).service m ret) :
    ∃ resp b, outcome (dispatch W d r) s = .ok resp ∧ resp.content = .bytes b := by
  obtain ⟨resp, b, h1, h2⟩ := finish_writes hw
  refine ⟨resp, b, ?_, h2⟩
  unfold outcome
  rw [dispatch_inner hq hp hB.requestHook, hi, afterChain_eq hB.responseHook ho hq' (by rw [hm]; exact h1)]

theorem answers_fault {c m : Str} (hq : s.reqs[r]? = some q) (hp : IsPost q) (hB : Bare W d)
    (hf : IsFault (inner W d r q s).1 c m Val.none) (hc : XmlOk c) (hm : XmlOk m) :
    ∃ resp b, outcome (dispatch W d r) s = .ok resp ∧ resp.content = .bytes b := by
  obtain ⟨resp, h1, _, h2, _⟩ := fault_answer hq hp hB.requestHook hB.responseHook hB.depth hf hc hm
  exact ⟨resp, _, by unfold outcome; rw [h1], h2⟩

/-- What the function did, after all. -/
theorem function_cases {s1 : State} {q1 : Req} {m : MethodId} {v : Val} {f : ReqId → Val → Prog Empty Ret}
    {raises : Exn → Prop} (hE : Ends W (W.disp d).service m raises f v) (hq : s1.reqs[r]? = some q1)
    (hm : q1.method = some m) :
    ∃ q' s', s'.reqs[r]? = some q' ∧ q'.method = some m ∧ q'.dispatcher = q1.dispatcher ∧
      ((∃ e, raises e ∧ M.bind (f r v).run' (fun ret => M.pure (Ret.response ret.toResponse)) s1 = (.error e, s')) ∨
        ∃ ret, CanWrite W (W.disp d).service m ret ∧
          M.bind (f r v).run' (fun ret => M.pure (Ret.response ret.toResponse)) s1 = (.ok (.response ret.toResponse), s')) := by
  obtain ⟨⟨q', h1, h2, h3⟩, h4⟩ := hE r s1 q1 hq hm
  refine ⟨q', ((f r v).run' s1).2, h1, h2, h3, ?_⟩
  rcases h4 with ⟨e, he, hr⟩ | ⟨ret, he, hw⟩
  · exact .inl ⟨e, hr, M.bind_error (Prod.ext he rfl)⟩
  · refine .inr ⟨ret, hw, ?_⟩
    rw [M.bind_ok (Prod.ext he rfl)]
    rfl

theorem Handles.mem {S : Service} {env : Env} {root : Str} {m : MethodId} (h : Handles W S env root m) : m ∈ S.methods := by
  cases h with
  | action _ h => obtain ⟨p, q, e, _⟩ := h; rw [e]; simp
  | input _ h => obtain ⟨p, q, e, _⟩ := h; rw [e]; simp
  | substitution _ _ _ _ _ _ h => obtain ⟨p, q, e, _⟩ := h; rw [e]; simp

end

theorem invalidAction_ok : XmlOk py"Invalid SOAP action: " := by unfold XmlOk; decide
theorem invalidRoot_ok : XmlOk py"Missing SOAP action and invalid root tag: " := by unfold XmlOk; decide
theorem missingBody_ok : XmlOk py"Missing SOAP body" := by unfold XmlOk; decide

/-- **C95 (a dispatcher answers).** Without middlewares and hooks for SOAP requests, a dispatcher whose parts fit together
answers every POST request - well-formed or not, valid or not, with known or unknown action - as long as the document, if
it is one, is ordinary. -/
theorem C95_answered (W : World) (d : DispId) (r : ReqId) (s : State) (q : Req) (hq : s.reqs[r]? = some q) (hp : IsPost q)
    (hB : Bare W d) (hmid : (W.disp d).middlewares = []) (hF : Fits W d q.environ)
    (hdoc : ∀ doc, W.read q.content = some doc →
      Ordinary doc ∧ NamesAllowed doc ∧ Routable W (W.disp d).service q.environ doc) :
    ∃ resp b, outcome (dispatch W d r) s = .ok resp ∧ resp.content = .bytes b := by
  have hq2 := begin_req (d := d) hq
  have hin : inner W d r q s = callMethod W r (s.begin d r q) := by
    unfold inner
    rw [hmid]
    rfl
  have hcl := client_ok (W.disp d).service.version
  have hnamed : ∀ {h x}, readAndValidate W (W.disp d) q.content = .ok (h, x) →
      (∃ n, x.Named n ∧ XmlOk n ∧ ((∃ a, HasAction (W.disp d).service q.environ a) ∨
        ∀ s ∈ (W.disp d).service.schemas, ∀ e, (W.schema s).elements.get? n = some e →
          (∃ m ∈ (W.disp d).service.methods, (W.method m).input = .name n) ∨ e.substitutionGroup ≠ none)) ∧
      (W.disp d).validator x = .ok () := by
    intro h x hrv
    obtain ⟨doc, body, h1, h2, h3, ⟨n, h4⟩, h5, _⟩ := readAndValidate_checked hrv
    refine ⟨⟨n, h4, (hdoc doc h1).2.1 body h2.mem.1 x ?_ n h4, ?_⟩, h5⟩
    · exact List.mem_of_mem_head? h3
    · exact (hdoc doc h1).2.2.imp_right fun h => h body x n h2 h3 h4
  have hread : (∃ m, readAndValidate W (W.disp d) q.content =
        .error (.soapError (W.disp d).service.version.client m none) ∧ XmlOk m) ∨
      ∃ hdr x, readAndValidate W (W.disp d) q.content = .ok (headerVal hdr, x) ∧ HeadersOk W (W.disp d) hdr := by
    cases hr : W.read q.content with
    | none =>
      refine .inl ⟨W.describe .xmlSyntaxError, ?_, hF.texts _ (.inr rfl)⟩
      simp only [readAndValidate, parseSoapContent, hr]
      rfl
    | some doc =>
      rcases readAndValidate_ordinary (D := W.disp d) hB.depth hF.validator hF.wsa hr (hdoc doc hr).1 with
        ⟨m, h1, rfl | ⟨e, hi, rfl⟩⟩ | h
      · exact .inl ⟨_, h1, missingBody_ok⟩
      · exact .inl ⟨_, h1, hF.texts e hi⟩
      · exact .inr h
  have hclean : ∀ {e s'}, inner W d r q s = (.error e, s') → CleanError e →
      ∃ resp b, outcome (dispatch W d r) s = .ok resp ∧ resp.content = .bytes b := by
    rintro e s' hi ⟨c, m, a, rfl, hc, hm⟩
    exact answers_fault hq hp hB (by rw [hi]; exact .raised) hc hm
  rcases callMethod_cases (W := W) hq2 rfl with ⟨e, s', q', h1, _, _, hs⟩ | ⟨h, x, m, hv, v, f, h1, h2, h3, h4, h5⟩
  · have hi := hin.trans h1
    refine hclean hi ?_
    cases hs with
    | read hre =>
      rcases hread with ⟨m, hm, hok⟩ | ⟨hdr, x, hm, _⟩
      · rw [hm] at hre; injection hre with hre; exact ⟨_, _, _, hre.symm, hcl, hok⟩
      · rw [hm] at hre; cases hre
    | handler hre hf =>
      obtain ⟨⟨n, hn, hok, hdecl⟩, _⟩ := hnamed hre
      rcases findHandler_fails hn hf with ⟨a, ha, rfl⟩ | rfl | ⟨_, hna, hno, s, hs, el, hel, hg⟩
      · exact ⟨_, _, _, rfl, hcl, invalidAction_ok.append (hF.action a ha)⟩
      · exact ⟨_, _, _, rfl, hcl, invalidRoot_ok.append hok⟩
      · rcases hdecl with ⟨a, ha⟩ | hdecl
        · exact absurd ha (hna a)
        · rcases hdecl s hs el hel with ⟨m, hm, hin⟩ | hsg
          · exact absurd hin (hno m hm)
          · exact absurd hg hsg
    | @header h x m hre hf hh =>
      exfalso
      rcases hread with ⟨m, hm, _⟩ | ⟨hdr, x', hm, hok⟩
      · rw [hm] at hre; cases hre
      · rw [hm] at hre; injection hre with hre; injection hre with e1 e2; subst e1; subst e2
        obtain ⟨n, _, hhan⟩ := findHandler_iff.1 hf
        cases hdr with
        | none => cases hh
        | some hx =>
          obtain ⟨w, hw⟩ := hF.headers hx m (hok hx rfl) hhan.mem
          rw [parseHeaderPart_iff.2 hw] at hh
          cases hh
    | @input h x m hre hf hh =>
      exfalso
      obtain ⟨n, hn, hhan⟩ := findHandler_iff.1 hf
      obtain ⟨w, hw⟩ := hF.reads x n m (hnamed hre).2 hn hhan
      rw [parseInput_iff.2 hw] at hh
      cases hh
    | @function h x m hre hf hno _ =>
      exfalso
      obtain ⟨n, hn, hhan⟩ := findHandler_iff.1 hf
      obtain ⟨f, hf', _⟩ := hF.functions m hhan.mem
      rw [hno] at hf'
      cases hf'
  · obtain ⟨n, hn, hhan⟩ := findHandler_iff.1 h2
    obtain ⟨f', hf', hE⟩ := hF.functions m hhan.mem
    obtain rfl : f = f' := Option.some.inj (h4.symm.trans hf')
    have hlt : r < (s.begin d r q).reqs.length := (List.getElem?_eq_some_iff.1 hq2).1
    have hE := hE x v (hnamed h1).2 (parseInput_iff.1 h3)
    obtain ⟨q', s', g1, g2, g3, g4⟩ := function_cases (d := d) hE (r := r)
      (s1 := ⟨(s.begin d r q).reqs.set r { q with dispatcher := some d, method := some m, soapHeader := hv, soapBody := v }, _⟩)
      (List.getElem?_set_self hlt) rfl
    rcases g4 with ⟨e, he, g4⟩ | ⟨ret, hw, g4⟩
    · exact hclean (hin.trans (h5.trans g4)) he
    · exact answers_value hq hp hB (ret := ret) (hin.trans (h5.trans g4)) rfl g1 g2 hw

theorem Ns_dates {t : FType} (h : ReadsDates t) : DatesOk t := fun iso ht s => ⟨h iso ht s⟩

theorem firstE_some {α β : Type} {f : α → Except Exn (Option β)} {P : β → Prop} (h : ∀ a b, f a = .ok (some b) → P b) :
    ∀ {l : List α} {b : β}, firstE f l = .ok (some b) → P b
  | [], _, hb => by cases hb
  | a :: as, b, hb => by
    unfold firstE at hb
    obtain ⟨o, h1, h2⟩ := bind_eq_ok.1 hb
    cases o with
    | none => exact firstE_some h h2
    | some b' => injection h2 with h2; injection h2 with h2; exact h a b (h2 ▸ h1)

/-- Reading an element's declaration. -/
theorem elementByName_dates {W : World} (h : ∀ s n e, (W.schema s).elements.get? n = some e → ReadsDates e.type) {n : Str}
    {k : Nat} {s : SchemaId} : Ns (elementByName W n k s) ∧ ∀ e, elementByName W n k s = .ok (some e) → ReadsDates e.type := by
  induction k generalizing s with
  | zero =>
    unfold elementByName
    exact ⟨Ns.err (by nofun), fun e he => by cases he⟩
  | succ k ih =>
    unfold elementByName
    split
    · next e he => exact ⟨Ns.ok, fun e' he' => by injection he' with he'; injection he' with he'; exact he' ▸ h s n e he⟩
    · refine ⟨Ns.firstE fun s' _ => ih.1, fun e he => ?_⟩
      exact firstE_some (fun s' e he => (ih (s := s')).2 e he) he

theorem soapTable_dates {v : Version} {U : Table} (h : ∀ c, ∀ f ∈ (U c).fields, ReadsDates f.type) :
    ∀ c, ∀ f ∈ (soapTable v U c).fields, DatesOk f.type := by
  intro c f hf
  refine Ns_dates ?_
  match c with
  | 0 | 2 => cases hf
  | 1 | 3 | 5 | 6 | 7 =>
    simp only [soapTable, List.mem_cons, List.not_mem_nil, or_false] at hf
    intro iso hi
    rcases hf with rfl | rfl <;> cases hi
  | 4 =>
    have hf : f ∈ v.faultFields := hf
    intro iso hi
    cases v <;> simp only [Version.faultFields, List.mem_cons, List.not_mem_nil, or_false] at hf
    · rcases hf with rfl | rfl | rfl | rfl <;> cases hi
    · rcases hf with rfl | rfl | rfl | rfl | rfl <;> cases hi
  | n + 8 => exact h (n + 8) f hf

/-- Only what can be reported is raised. -/
structure Rp {α : Type} (x : Except Exn α) : Prop where
  other : ∀ e, x = .error e → Reportable e

theorem Ns.rp {α : Type} {x : Except Exn α} (h : Ns x) : Rp x := ⟨fun e he c m a h' => absurd h' (h.other e he c m a)⟩
theorem Rp.bind {α β : Type} {x : Except Exn α} {f : α → Except Exn β} (h : Rp x) (h' : ∀ a, Rp (f a)) : Rp (x >>= f) := by
  cases x with
  | ok a => exact h' a
  | error e => exact ⟨fun e' he => by injection he with he; exact he ▸ h.other e rfl⟩
theorem Rp.soap {α : Type} {c m : Str} {a : Option Str} (hc : XmlOk c) (hm : XmlOk m) :
    Rp (.error (.soapError c m a) : Except Exn α) :=
  ⟨fun e he c' m' a' h' => by subst h'; injection he with he; injection he with e1 e2; exact ⟨e1 ▸ hc, e2 ▸ hm⟩⟩

theorem Ns.getA {v : Val} {n : Str} : Ns (v.getA n) := by
  unfold Val.getA getAttr
  nosoap
theorem Ns.element {v : Val} : Ns v.element := by unfold Val.element; nosoap
theorem Ns.bodyContent {v : Val} : Ns (bodyContent v) := by
  refine Ns.bind Ns.element fun _ => ?_
  split
  · exact Ns.ok
  · exact Ns.err (by nofun)
theorem Ns.eachE {α : Type} {f : α → Except Exn Unit} {l : List α} (h : ∀ a ∈ l, Ns (f a)) : Ns (eachE f l) :=
  ⟨fun e he => by obtain ⟨a, ha, he⟩ := eachE_error he; exact (h a ha).other e he⟩
theorem Validates.ns {check : Xml → Except Exn Unit} (h : Validates check) {q : QName} {a : List (QName × Str)}
    {t : Option Str} {k : List Xml} : Ns (check (.elem q a t k)) := by
  rcases h (.elem q a t k) _ ⟨q, a, t, k, rfl, rfl⟩ with h | ⟨e, hi, h⟩ <;> rw [h]
  · exact Ns.ok
  · exact Ns.err (by rcases hi with rfl | rfl <;> nofun)

/-- Reading and validating raises only what can be reported. -/
theorem readAndValidate_reportable {W : World} {D : Dispatcher} {content : Bytes} (hv : Validates D.validator)
    (hw : Validates W.wsaValid) (ht : ∀ e, XmlOk (W.describe e))
    (hT : ∀ c, ∀ f ∈ (W.table D.service c).fields, DatesOk f.type) : Rp (readAndValidate W D content) := by
  have hcl := client_ok D.service.version
  unfold readAndValidate
  refine Rp.bind ?_ fun env => Rp.bind Ns.getA.rp fun _ => Rp.bind Ns.getA.rp fun _ => Rp.bind Ns.bodyContent.rp fun x =>
    Rp.bind ?_ fun _ => Ns.ok.rp
  · unfold parseSoapContent
    split
    · exact Rp.soap hcl (ht _)
    · refine Rp.bind (Ns.parseCls hT).rp fun _ => Rp.bind Ns.getA.rp fun _ => ?_
      split
      · exact Rp.soap hcl missingBody_ok
      · exact Ns.ok.rp
  · have : Ns (validateInput W D env) := by
      refine Ns.bind Ns.getA fun hd => Ns.bind ?_ fun _ => Ns.bind Ns.getA fun _ => Ns.bind Ns.bodyContent fun x => ?_
      · unfold validateHeader
        split
        · exact Ns.ok
        · refine Ns.bind Ns.element fun y => Ns.eachE fun k _ => ?_
          unfold validateHeaderChild
          split
          · split
            · exact hw.ns
            · unfold unlessStrict
              split
              · exact Ns.ok
              · next e he =>
                split
                · exact Ns.ok
                · exact Ns.err (hv.ns.other _ he)
          · exact Ns.err (by nofun)
      · unfold validateElement
        split
        · exact hv.ns
        · exact Ns.err (by nofun)
    unfold asClientFault
    split
    · exact Ns.ok.rp
    · next e he =>
      split
      · exact Rp.soap hcl (ht _)
      · exact (Ns.err (this.other e he)).rp

/-- **C95 (ExceptionToSoapFault answers everything).** With ExceptionToSoapFault as middleware, the dispatcher answers every
POST request whatever its content; what valid input, schemas and headers are does not matter. -/
theorem C95_shielded (W : World) (d : DispId) (r : ReqId) (s : State) (q : Req) (tb : Bool) (hq : s.reqs[r]? = some q)
    (hp : IsPost q) (hB : Bare W d) (hmid : (W.disp d).middlewares = [exceptionToSoapFault W tb])
    (hF : Shielded W d tb q.environ) (hdoc : ∀ doc, W.read q.content = some doc → NamesAllowed doc) :
    ∃ resp b, outcome (dispatch W d r) s = .ok resp ∧ resp.content = .bytes b := by
  have hq2 := begin_req (d := d) hq
  have hin : inner W d r q s = chain W [exceptionToSoapFault W tb] r (s.begin d r q) := by
    unfold inner
    rw [hmid]
  have hcl := client_ok (W.disp d).service.version
  have hserver : XmlOk (W.disp d).service.version.server := by
    cases (W.disp d).service.version <;> (unfold XmlOk; decide)
  have hT : ∀ c, ∀ f ∈ (W.table (W.disp d).service c).fields, DatesOk f.type :=
    soapTable_dates hF.dates
  have hraised : ∀ {e s' q'}, callMethod W r (s.begin d r q) = (.error e, s') → s'.reqs[r]? = some q' →
      q'.dispatcher = some d → Reportable e →
      ∃ resp b, outcome (dispatch W d r) s = .ok resp ∧ resp.content = .bytes b := by
    intro e s' q' h h1 h2 he
    by_cases ho : OtherError e
    · have hc := C44_other_error W [] r _ _ tb e ho q' d h h1 h2
      refine answers_fault hq hp hB (by rw [hin, hc]; exact .returned) hserver ?_
      cases tb with
      | true => exact hF.tracebacks rfl e
      | false => exact hF.texts e
    · have : ∃ c m a, e = .soapError c m a := by
        cases e <;> first | exact ⟨_, _, _, rfl⟩ | exact absurd (by nofun) ho
      obtain ⟨c, m, a, rfl⟩ := this
      have hc := C44_soap_error W [] r _ _ tb c m a h
      obtain ⟨e1, e2⟩ := he c m a rfl
      exact answers_fault hq hp hB (by rw [hin, hc]; exact .returned) e1 e2
  have other : ∀ {e}, OtherError e → Reportable e := fun h c m a he => absurd he (h c m a)
  rcases callMethod_cases (W := W) hq2 rfl with ⟨e, s', q', h1, h2, h3, hs⟩ | ⟨h, x, m, hv, v, f, h1, h2, h3, h4, h5⟩
  · refine hraised h1 h2 h3 ?_
    cases hs with
    | read hre => exact (readAndValidate_reportable hF.validator hF.wsa hF.texts hT).other e hre
    | @handler h x hre hf =>
      obtain ⟨doc, body, g1, g2, g3, ⟨n, hn⟩, _⟩ := readAndValidate_checked hre
      have hok : XmlOk n := hdoc doc g1 body g2.mem.1 x (List.mem_of_mem_head? g3) n hn
      intro c m a he
      rcases findHandler_fails hn hf with ⟨act, ha, h⟩ | h | ⟨h, _⟩
      · rw [he] at h; injection h with e1 e2; exact ⟨e1 ▸ hcl, e2 ▸ invalidAction_ok.append (hF.action act ha)⟩
      · rw [he] at h; injection h with e1 e2; exact ⟨e1 ▸ hcl, e2 ▸ invalidRoot_ok.append hok⟩
      · rw [he] at h; cases h
    | @header h x m hre hf hh =>
      refine other (Ns.other (α := Val) ?_ e hh)
      unfold parseHeaderPart headerParseAs
      repeat' (first | exact Ns.ok | split)
      all_goals refine Ns.bind ?_ fun _ => Ns.parseCls hT
      all_goals unfold Val.element; nosoap
    | @input h x m hre hf hh =>
      refine other ?_
      unfold parseInput at hh
      split at hh
      · next n hn =>
        have hfe : Ns ((W.disp d).service.findElement W n) := Ns.firstE fun s _ => (elementByName_dates hF.elements).1
        cases he : (W.disp d).service.findElement W n with
        | error e' => rw [he] at hh; injection hh with hh; exact hfe.other e (hh ▸ he)
        | ok o =>
          rw [he, Except_ok_bind] at hh
          cases o with
          | none => injection hh with hh; subst hh; nofun
          | some el =>
            have hd := firstE_some (f := elementByName W n W.depth)
              (fun s' e he => (elementByName_dates hF.elements).2 e he) he
            exact (Ns.parseType (Ns_dates hd) fun c x => Ns.parseCls hT).other e hh
      · exact (Ns.parseCls hT).other e hh
      · injection hh with hh; subst hh; nofun
    | function _ _ _ he => subst he; exact other (by nofun)
  · obtain ⟨n, hn, hhan⟩ := findHandler_iff.1 h2
    have hlt : r < (s.begin d r q).reqs.length := (List.getElem?_eq_some_iff.1 hq2).1
    obtain ⟨q', s', g1, g2, g3, g4⟩ := function_cases (d := d) (hF.functions m hhan.mem f h4 v) (r := r)
      (s1 := ⟨(s.begin d r q).reqs.set r { q with dispatcher := some d, method := some m, soapHeader := hv, soapBody := v }, _⟩)
      (List.getElem?_set_self hlt) rfl
    rcases g4 with ⟨e, he, g4⟩ | ⟨ret, hw, g4⟩
    · exact hraised (h5.trans g4) g1 g3 he
    · exact answers_value hq hp hB (ret := ret) (hin.trans (C44_result W [] r _ _ tb _ (h5.trans g4))) rfl g1 g2 hw

/-! ### Requests that are not answered -/

section
variable {W : World} {d : DispId} {r : ReqId} {s : State} {q : Req}

theorem escapes {e : Exn} (hq : s.reqs[r]? = some q) (hp : IsPost q) (hmid : (W.disp d).middlewares = [])
    (h1 : (W.disp d).hooks.get? py"soap-request" = none)
    (h : readAndValidate W (W.disp d) q.content = .error e) (he : OtherError e) :
    outcome (dispatch W d r) s = .error e ∧ happened (dispatch W d r) s = [] := by
  have hi : inner W d r q s = (.error e, s.begin d r q) := by
    unfold inner
    rw [hmid]
    exact callMethod_rejected (begin_req hq) rfl h
  have := C43_propagates W d r s q e hq hp h1 (by rw [hi]) he
  refine ⟨by rw [outcome, this], ?_⟩
  unfold happened
  rw [this, hi]
  simp [State.begin]

/-- Reading a readable document with a Body. -/
theorem readAndValidate_readable {D : Dispatcher} {content : Bytes} {doc b : Xml} (hD : 4 ≤ W.depth)
    (hr : W.read content = some doc) (hd : Readable doc) (hb : LastChild doc py"Body" b) :
    ∃ hv, HeaderIs doc hv ∧ readAndValidate W D content = (do
      let x ← bodyContent (bodyObj b)
      asClientFault W D.service.version (do
        validateHeader W D hv
        validateElement D.validator x)
      .ok (hv, x)) := by
  obtain ⟨k, hk⟩ : ∃ k, W.depth = k + 4 := ⟨W.depth - 4, by omega⟩
  obtain ⟨hv, bv, hp, hh, hb'⟩ := parse_readable (v := D.service.version) (U := W.user) (k := k) hd
  cases hb' with
  | none hno => exact absurd hb.mem.2 (hno b hb.mem.1)
  | @some b' hb' =>
  obtain rfl := LastChild.unique hb hb'
  refine ⟨hv, hh, ?_⟩
  have hps : parseSoapContent W D.service content =
      .ok (.inst cEnvelope [(py"Header", hv), (py"Body", bodyObj b)] (some doc)) := by
    simp only [parseSoapContent, hr, World.table, hk, hp, Except_ok_bind, getA_body]
    rfl
  simp only [readAndValidate, hps, validateInput, Except_ok_bind, getA_body, getA_header]
  cases bodyContent (bodyObj b) <;> rfl

theorem content_head {b x : Xml} (h : b.kids.head? = some x) : bodyContent (bodyObj b) = .ok x := by
  unfold bodyContent bodyObj
  simp only [Val.element, Except_ok_bind]
  cases hk : b.kids with
  | nil => rw [hk] at h; cases h
  | cons y ys => rw [hk] at h; injection h with h; subst h; rfl

end

section
variable (W : World) (d : DispId) (r : ReqId) (s : State) (q : Req) (doc : Xml) (hq : s.reqs[r]? = some q) (hp : IsPost q)
  (hmid : (W.disp d).middlewares = []) (h1 : (W.disp d).hooks.get? py"soap-request" = none) (hD : 4 ≤ W.depth)
  (hr : W.read q.content = some doc)
include hq hp hmid h1 hD hr

/-- **C95 (empty Body).** A Body without children: an IndexError escapes. -/
theorem C95_empty (b : Xml) (hd : Readable doc) (hb : LastChild doc py"Body" b) (hk : b.kids = []) :
    outcome (dispatch W d r) s = .error .indexError ∧ happened (dispatch W d r) s = [] := by
  refine escapes hq hp hmid h1 ?_ (by nofun)
  obtain ⟨hv, _, h⟩ := readAndValidate_readable (D := W.disp d) hD hr hd hb
  rw [h]
  unfold bodyContent bodyObj
  simp only [Val.element, Except_ok_bind, hk]
  rfl

/-- **C95 (comment in the Body).** If the first thing in the Body is a comment, a ValueError escapes - provided that there
is nothing wrong with the Header. -/
theorem C95_comment (b : Xml) (hd : Readable doc) (hb : LastChild doc py"Body" b) (hk : b.kids.head? = some .comment)
    (hh : ∀ h, LastChild doc py"Header" h → ¬ IsNil h ∧ ∀ y ∈ h.kids, HeaderOk W (W.disp d) y) :
    outcome (dispatch W d r) s = .error .valueError ∧ happened (dispatch W d r) s = [] := by
  refine escapes hq hp hmid h1 ?_ (by nofun)
  obtain ⟨hv, hhv, hrv⟩ := readAndValidate_readable (D := W.disp d) hD hr hd hb
  have hval : validateHeader W (W.disp d) hv = .ok () := by
    cases hhv with
    | none hno => rfl
    | @nil h hl hi => exact absurd hi (hh h hl).1
    | @some h hl hi =>
      exact (validateHeader_iff (hdr := some h)).2 fun h' e => by injection e with e; subst e; exact (hh h hl).2
  rw [hrv, content_head hk]
  simp only [Except_ok_bind, hval]
  rfl

/-- **C95 (comment in the Header).** If the Header is neither nil nor invalid up to a comment among its children, a
ValueError escapes, whatever the Body contains. -/
theorem C95_header_comment (b h x : Xml) (pre post : List Xml) (hd : Readable doc) (hb : LastChild doc py"Body" b)
    (hk : b.kids.head? = some x) (hl : LastChild doc py"Header" h) (hn : ¬ IsNil h) (hh : h.kids = pre ++ .comment :: post)
    (hpre : ∀ y ∈ pre, HeaderOk W (W.disp d) y) :
    outcome (dispatch W d r) s = .error .valueError ∧ happened (dispatch W d r) s = [] := by
  refine escapes hq hp hmid h1 ?_ (by nofun)
  obtain ⟨hv, hhv, hrv⟩ := readAndValidate_readable (D := W.disp d) hD hr hd hb
  have hval : validateHeader W (W.disp d) hv = .error .valueError := by
    cases hhv with
    | none hno => exact absurd hl.mem.2 (hno h hl.mem.1)
    | @nil h' hl' hi => exact absurd (LastChild.unique hl' hl ▸ hi) hn
    | @some h' hl' hi =>
      obtain rfl := LastChild.unique hl' hl
      have : validateHeader W (W.disp d) (.inst cHeader [] (some h')) = eachE (validateHeaderChild W (W.disp d)) h'.kids := rfl
      rw [this, hh]
      clear hh this hrv hi hl hl' hn
      induction pre with
      | nil => rfl
      | cons y ys ih =>
        simp only [List.cons_append, eachE, headerChild_iff.2 (hpre y (by simp)), Except_ok_bind]
        exact ih fun z hz => hpre z (by simp [hz])
  rw [hrv, content_head hk]
  simp only [Except_ok_bind, hval]
  rfl

/-- **C95 (nil Header).** A Header marked nil: an AttributeError escapes. -/
theorem C95_nil_header (b h x : Xml) (hd : Readable doc) (hb : LastChild doc py"Body" b)
    (hk : b.kids.head? = some x) (hl : LastChild doc py"Header" h) (hn : IsNil h) :
    outcome (dispatch W d r) s = .error .attributeError ∧ happened (dispatch W d r) s = [] := by
  refine escapes hq hp hmid h1 ?_ (by nofun)
  obtain ⟨hv, hhv, h'⟩ := readAndValidate_readable (D := W.disp d) hD hr hd hb
  cases hhv with
  | none hno => exact absurd hl.mem.2 (hno h hl.mem.1)
  | @some h' hl' hi => exact absurd (LastChild.unique hl hl' ▸ hn) hi
  | nil hl' hi =>
    rw [h', content_head hk]
    rfl

/-- **C95 (processing instruction).** A processing instruction among the children of the envelope: a TypeError escapes. -/
theorem C95_instruction (hpi : .pi ∈ doc.kids) :
    outcome (dispatch W d r) s = .error .typeError ∧ happened (dispatch W d r) s = [] := by
  refine escapes hq hp hmid h1 ?_ (by nofun)
  obtain ⟨k, hk⟩ : ∃ k, W.depth = k + 4 := ⟨W.depth - 4, by omega⟩
  simp only [readAndValidate, parseSoapContent, hr, World.table, hk, parse_instruction hpi]
  rfl

/-- **C95 (nil Body).** A Body marked nil: a ValueError escapes. -/
theorem C95_nil_body (b : Xml) (hpi : NoInstruction doc) (hb : b ∈ doc.kids) (hname : b.Named py"Body") (hn : IsNil b)
    (hd : ∀ b ∈ doc.kids, b.Named py"Body" → IsNil b ∨
      (NoInstruction b ∧ ∀ y ∈ b.kids, ¬ y.Named py"message" ∧ ¬ y.Named py"Fault")) :
    outcome (dispatch W d r) s = .error .valueError ∧ happened (dispatch W d r) s = [] := by
  refine escapes hq hp hmid h1 ?_ (by nofun)
  obtain ⟨k, hk⟩ : ∃ k, W.depth = k + 4 := ⟨W.depth - 4, by omega⟩
  simp only [readAndValidate, parseSoapContent, hr, World.table, hk, parse_nil hpi hb hname hn hd]
  rfl

end

/-! ### Examples -/

namespace ExR
open ExS

/-- Valid are elements of the service's namespace with a name. -/
def checks : Xml → Except Exn Unit
  | .elem q _ _ [.elem ⟨none, n⟩ [] (some _) []] =>
    if q.ns = some ns ∧ n = py"name" then .ok () else .error .documentInvalid
  | _ => .error .documentInvalid

/-- The example service with this validation; every content is read as `doc`. -/
def solid (doc : Option Xml) (ms : List Middleware := []) : World :=
  { world with disp := fun _ => { disp true with validator := checks, middlewares := ms }, read := fun _ => doc }

theorem checks_ok {x : Xml} (h : checks x = .ok ()) :
    ∃ q a t t', x = .elem q a t [.elem ⟨none, py"name"⟩ [] (some t') []] := by
  unfold checks at h
  split at h
  · next q a t n t' =>
    split at h
    · next hc => exact ⟨q, a, t, t', by rw [hc.2]⟩
    · cases h
  · cases h

theorem validates : Validates checks := by
  intro x n _
  unfold checks
  split
  · split
    · exact .inl rfl
    · exact .inr ⟨_, .inl rfl, rfl⟩
  · exact .inr ⟨_, .inl rfl, rfl⟩

theorem bare (doc : Option Xml) (ms : List Middleware) : Bare (solid doc ms) 0 := ⟨by show 4 ≤ 10; decide, rfl, rfl⟩

def env : Env := (request py"POST" []).environ

theorem no_action (doc : Option Xml) (ms : List Middleware) (a : Str) :
    ¬ HasAction ((solid doc ms).disp 0).service env a := fun h => by cases h.1

theorem ends (doc : Option Xml) (ms : List Middleware) (raises : Exn → Prop) (v : Val) :
    Ends (solid doc ms) ((solid doc ms).disp 0).service 0 raises (fun _ _ => .ret (.obj (.val answer))) v := by
  intro r s q hq hm
  refine ⟨⟨q, hq, hm, rfl⟩, .inr ⟨_, rfl, ?_⟩⟩
  exact .value (v := answer) (t := py"sayHelloResponse") rfl rfl (by rfl)

theorem fits (doc : Option Xml) : Fits (solid doc) 0 env where
  texts := fun e _ => by show XmlOk py"invalid"; unfold XmlOk; decide
  action := fun a h => absurd h (no_action doc [] a)
  validator := validates
  wsa := fun x n _ => .inl rfl
  reads := fun x n m hx _ _ => by
    obtain ⟨q, a, t, t', rfl⟩ := checks_ok hx
    exact ⟨_, .element (n := py"sayHello") rfl rfl rfl⟩
  headers := fun h m _ _ => ⟨_, .unknown rfl rfl⟩
  functions := fun m hm => ⟨_, rfl, fun x v _ _ => by
    obtain rfl : m = 0 := by simpa [solid, disp] using hm
    exact ends doc [] CleanError v⟩

/-- A message with a header that nobody knows. -/
def strange : Xml := envelope [headerElem [extra], bodyElem (body py"sayHello")]

theorem last_two {a b : Xml} {n : Str} (hb : b.Named n) : LastChild (envelope [a, b]) n b :=
  ⟨[a], [], rfl, hb, by simp⟩

theorem ordinary : Ordinary strange ∧ NamesAllowed strange ∧ Routable (solid (some strange)) ((solid (some strange)).disp 0).service env strange := by
  have hB : LastChild strange py"Body" (bodyElem (body py"sayHello")) := last_two ⟨_, _, _, _, rfl, rfl⟩
  have hH : LastChild strange py"Header" (headerElem [extra]) := ⟨[], _, rfl, ⟨_, _, _, _, rfl, rfl⟩, by
    intro y hy
    obtain rfl : y = bodyElem (body py"sayHello") := by simpa using hy
    rintro ⟨q, a, t, k, h, hq⟩
    injection h with h; subst h; revert hq; decide⟩
  have named : ∀ {x : Xml} {n m : Str}, x.Named n → x.Named m → n = m := by
    rintro x n m ⟨q, a, t, k, rfl, rfl⟩ ⟨q', a', t', k', h, rfl⟩
    injection h with h; rw [h]
  refine ⟨⟨⟨?_, ?_⟩, ?_, ?_⟩, ?_, .inr ?_⟩
  · intro y hy
    rcases List.mem_cons.1 hy with rfl | hy
    · nofun
    · obtain rfl := List.mem_singleton.1 hy; nofun
  · intro b hb hn
    rcases List.mem_cons.1 hb with rfl | hb
    · exact absurd (named (n := py"Header") ⟨_, _, _, _, rfl, rfl⟩ hn) (by decide)
    · obtain rfl := List.mem_singleton.1 hb
      refine ⟨by unfold IsNil; decide, ?_, ?_⟩
      · intro y hy; obtain rfl := List.mem_singleton.1 hy; nofun
      · intro y hy
        obtain rfl := List.mem_singleton.1 hy
        exact ⟨fun h => absurd (named (n := py"sayHello") ⟨_, _, _, _, rfl, rfl⟩ h) (by decide),
          fun h => absurd (named (n := py"sayHello") ⟨_, _, _, _, rfl, rfl⟩ h) (by decide)⟩
  · intro h hl
    obtain rfl := LastChild.unique hl hH
    refine ⟨by unfold IsNil; decide, ?_⟩
    intro y hy; obtain rfl := List.mem_singleton.1 hy; exact ⟨_, _, _, _, _, rfl, rfl⟩
  · intro b hl
    obtain rfl := LastChild.unique hl hB
    exact ⟨_, py"sayHello", rfl, _, _, _, _, rfl, rfl⟩
  · intro p hp y hy n hn
    rcases List.mem_cons.1 hp with rfl | hp
    · obtain rfl := List.mem_singleton.1 hy
      obtain rfl := named (n := py"token") ⟨_, _, _, _, rfl, rfl⟩ hn
      unfold XmlOk; decide
    · obtain rfl := List.mem_singleton.1 hp
      obtain rfl := List.mem_singleton.1 hy
      obtain rfl := named (n := py"sayHello") ⟨_, _, _, _, rfl, rfl⟩ hn
      unfold XmlOk; decide
  · intro b x n hl hx hn s _ e _
    obtain rfl := LastChild.unique hl hB
    obtain rfl := Option.some.inj hx
    obtain rfl := named (n := py"sayHello") ⟨_, _, _, _, rfl, rfl⟩ hn
    exact .inl ⟨0, List.mem_singleton.2 rfl, rfl⟩

/-- Answered: a message with a strange header, and one that is not XML. -/
example : ∃ resp b, outcome (dispatch (solid (some strange)) 0 0) { reqs := [request py"POST" []] } = .ok resp ∧
    resp.content = .bytes b :=
  C95_answered (solid (some strange)) 0 0 _ _ rfl rfl (bare _ _) rfl (fits _) (by
    intro doc h; obtain rfl := Option.some.inj h; exact ordinary)
example : ∃ resp b, outcome (dispatch (solid none) 0 0) { reqs := [request py"POST" []] } = .ok resp ∧
    resp.content = .bytes b :=
  C95_answered (solid none) 0 0 _ _ rfl rfl (bare _ _) rfl (fits _) (by intro doc h; cases h)

/-- An envelope with a processing instruction, an empty Body or a comment in it, a nil Header or Body. -/
def bodyOf (ks : List Xml) : Xml := .elem ⟨some Version.soap11.envelopeNs, py"Body"⟩ [] none ks
def nilOf (name : Str) (ks : List Xml) : Xml := .elem ⟨some Version.soap11.envelopeNs, name⟩ [(qNil, py"true")] none ks

/-- With ExceptionToSoapFault, even these are answered. -/
example (ks : List Xml) (h : NamesAllowed (envelope ks)) : ∃ resp b,
    outcome (dispatch (solid (some (envelope ks)) [exceptionToSoapFault world false]) 0 0)
      { reqs := [request py"POST" []] } = .ok resp ∧ resp.content = .bytes b :=
  C95_shielded (solid (some (envelope ks)) [exceptionToSoapFault world false]) 0 0 _ _ false rfl rfl (bare _ _) rfl
    { texts := fun e => by show XmlOk py"invalid"; unfold XmlOk; decide
      tracebacks := nofun
      action := fun a h => absurd h (no_action _ _ a)
      validator := validates
      wsa := fun x n _ => .inl rfl
      dates := fun c f hf iso hi => by
        have hf : f ∈ (ExS.user c).fields := hf
        unfold ExS.user at hf
        split at hf <;> simp at hf <;> subst hf <;> cases hi
      elements := fun s n e he iso hi => by
        have he : schema.elements.get? n = some e := he
        simp only [schema, Dict.get?] at he
        repeat' (split at he)
        all_goals first | (injection he with he; subst he; cases hi) | cases he
      functions := fun m hm f hf v => by
        obtain rfl : m = 0 := by simpa [solid, disp] using hm
        injection hf with hf
        subst hf
        exact ends _ _ _ v }
    (fun doc hd => by obtain rfl := Option.some.inj hd; exact h)

example : outcome (dispatch (solid (some (envelope [.pi, bodyElem (body py"sayHello")]))) 0 0)
    { reqs := [request py"POST" []] } = .error .typeError :=
  (C95_instruction (solid (some (envelope [.pi, bodyElem (body py"sayHello")]))) 0 0 { reqs := [request py"POST" []] } (request py"POST" []) _ rfl rfl rfl rfl (by decide) rfl
    (by simp [envelope, Xml.kids])).1

example : outcome (dispatch (solid (some (envelope [bodyOf []]))) 0 0) { reqs := [request py"POST" []] } =
    .error .indexError :=
  (C95_empty (solid (some (envelope [bodyOf []]))) 0 0 { reqs := [request py"POST" []] } (request py"POST" []) _ rfl rfl rfl rfl (by decide) rfl
    (bodyOf [])
    ⟨by intro y hy; obtain rfl := List.mem_singleton.1 hy; nofun, by
      intro b hb _
      obtain rfl := List.mem_singleton.1 hb
      exact ⟨by unfold IsNil; decide, nofun, nofun⟩⟩ ⟨[], [], rfl, ⟨_, _, _, _, rfl, rfl⟩, by simp⟩ rfl).1

example : outcome (dispatch (solid (some (envelope [bodyOf [.comment, body py"sayHello"]]))) 0 0)
    { reqs := [request py"POST" []] } = .error .valueError := by rfl
example : outcome (dispatch (solid (some (envelope [headerElem [.comment], bodyOf [body py"sayHello"]]))) 0 0)
    { reqs := [request py"POST" []] } = .error .valueError := by rfl
example : outcome (dispatch (solid (some (envelope [nilOf py"Header" [], bodyOf [body py"sayHello"]]))) 0 0)
    { reqs := [request py"POST" []] } = .error .attributeError := by rfl
example : outcome (dispatch (solid (some (envelope [nilOf py"Body" [body py"sayHello"]]))) 0 0)
    { reqs := [request py"POST" []] } = .error .valueError :=
  (C95_nil_body (solid (some (envelope [nilOf py"Body" [body py"sayHello"]]))) 0 0 { reqs := [request py"POST" []] } (request py"POST" []) _ rfl rfl rfl rfl (by decide) rfl
    (nilOf py"Body" [body py"sayHello"])
    (by intro y hy; obtain rfl := List.mem_singleton.1 hy; nofun) (List.mem_singleton.2 rfl) ⟨_, _, _, _, rfl, rfl⟩
    (by unfold IsNil; decide) (by
      intro b hb _
      obtain rfl := List.mem_singleton.1 hb
      exact .inl (by unfold IsNil; decide))).1

end ExR

end Soapfish
