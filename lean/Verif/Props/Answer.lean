import Verif.HandleLemmas
import Verif.ServiceExample
/-
How the outcome of middlewares and methods becomes an HTTP answer; middlewares and hooks (C41-C46).
-/
namespace Soapfish

/-! ### Faults that cannot be written -/

section
variable {T : Table} {rc : RenderCls} {vals : List (Str × Val)} {ns : Option Str} {q : Bool} {f : Field} {fs : List Field}
  {o : Out} {e : Exn}

theorem renderFields_child_error {v : Val} (hk : f.kind = .element) (hv : getAttr vals f.name = .ok v)
    (hn : v.isNone = false) (hx : renderChild rc f f.tag v ns q = .error e) :
    renderFields T rc vals ns q (f :: fs) = .error e := by
  simp only [renderFields, hv, Except_ok_bind, renderField, hk, hn, Bool.false_eq_true, if_false, hx]
  rfl

theorem renderFields_rest_error {x : Xml} {v : Val} (hk : f.kind = .element) (hv : getAttr vals f.name = .ok v)
    (hn : v.isNone = false) (hx : renderChild rc f f.tag v ns q = .ok x)
    (h : renderFields T rc vals ns q fs = .error e) : renderFields T rc vals ns q (f :: fs) = .error e := by
  simp only [renderFields, hv, Except_ok_bind, renderField, hk, hn, Bool.false_eq_true, if_false, hx, h]
  rfl

theorem renderChild_cls_error {c : ClsId} {v : Val} {loc : Str} (hf : f.type = .complex c) (hv : v.isNil = false)
    (h : rc c v (childNs f ns) q = .error e) : renderChild rc f loc v ns q = .error e := by
  unfold renderChild
  simp only [hv, Bool.false_eq_true, if_false, hf, renderType, h]
  rfl

end

theorem renderChild_text_error {rc : RenderCls} {f : Field} (hf : f.type = .simple (.string {})) {loc s : Str}
    {ns : Option Str} {q : Bool} {e : Exn} (h : xmlText s = .error e) :
    renderChild rc f loc (.atom (.str s)) ns q = .error e := by
  rw [renderChild_text hf, h]; rfl

theorem renderChild_lang_error {rc : RenderCls} {f : Field} (hf : f.type = .simple .lang) {loc s : Str}
    {ns : Option Str} {q : Bool} {e : Exn} (h : xmlText s = .error e) :
    renderChild rc f loc (.atom (.str s)) ns q = .error e := by
  rw [renderChild_lang hf, h]; rfl

theorem errorXml_bad (v : Version) (U : Table) (k : Nat) {code message : Str}
    (h : ¬ (XmlOk code ∧ XmlOk message)) :
    errorXml v (soapTable v U) (k + 4) code message none Val.none = .error .valueError := by
  have h1 : errorXml v (soapTable v U) (k + 4) code message none Val.none =
      envelopeXml v (soapTable v U) (k + 4) Val.none
        (.inst cBody [(py"message", Val.none), (py"Fault", faultVal v code message none)] none) := by
    unfold errorXml
    rw [buildFault_eq]
    cases v <;> rfl
  rw [h1, envelopeXml_none]
  have h2 : renderChild (renderCls (soapTable v U) (k + 2))
        { name := py"Fault", kind := .element, type := .complex cFault, required := false } py"Fault"
        (faultVal v code message none) (some v.envelopeNs) true = .error .valueError →
      renderCls (soapTable v U) (k + 3) cBody
      (.inst cBody [(py"message", Val.none), (py"Fault", faultVal v code message none)] none)
      (some v.envelopeNs) true = .error .valueError := by
    intro hx
    have : renderCls (soapTable v U) (k + 3) cBody
      (.inst cBody [(py"message", Val.none), (py"Fault", faultVal v code message none)] none)
      (some v.envelopeNs) true = (do
        let os ← (do
          let o ← (do
            let k ← renderChild (renderCls (soapTable v U) (k + 2))
              { name := py"Fault", kind := .element, type := .complex cFault, required := false } py"Fault"
              (faultVal v code message none) (some v.envelopeNs) true
            Except.ok (ε := Exn) ({ kids := [k] } : Out))
          let os ← Except.ok (ε := Exn) ({} : Out)
          Except.ok (ε := Exn) (o.append os))
        Except.ok (ε := Exn) (Out.append {} os)) := by cases v <;> rfl
    rw [this, hx]
    rfl
  suffices hs : renderCls (soapTable v U) (k + 2) cFault (faultVal v code message none) (some v.envelopeNs) true =
      .error .valueError by
    rw [h2 (renderChild_cls_error rfl (by cases v <;> rfl) hs)]
    rfl
  cases v with
  | soap11 =>
    show renderFields (soapTable .soap11 U) (renderCls (soapTable .soap11 U) (k + 1))
            [(py"faultcode", .atom (.str code)), (py"faultstring", .atom (.str message)), (py"faultactor", Val.none)]
            (some Version.soap11.envelopeNs) true Version.soap11.faultFields = _
    by_cases hc : XmlOk code
    · exact renderFields_rest_error rfl rfl rfl (renderChild_text_ok rfl (xmlText_of hc))
        (renderFields_child_error rfl rfl rfl (renderChild_text_error rfl (xmlText_not fun hm => h ⟨hc, hm⟩)))
    · exact renderFields_child_error rfl rfl rfl (renderChild_text_error rfl (xmlText_not hc))
  | soap12 =>
    show renderFields (soapTable .soap12 U) (renderCls (soapTable .soap12 U) (k + 1))
            [(py"Code", .inst cCode [(py"Value", .atom (.str code))] none),
             (py"Reason", .inst cReason [(py"Text", .atom (.str message))] none), (py"Role", Val.none)]
            (some Version.soap12.envelopeNs) true Version.soap12.faultFields = _
    by_cases hc : XmlOk code
    · have hcode : renderCls (soapTable .soap12 U) (k + 1) cCode (.inst cCode [(py"Value", .atom (.str code))] none)
          (some Version.soap12.envelopeNs) true =
            .ok { kids := [textElem (some Version.soap12.envelopeNs) py"Value" code] } := by
        show renderFields (soapTable .soap12 U) (renderCls (soapTable .soap12 U) k) [(py"Value", .atom (.str code))]
          (some Version.soap12.envelopeNs) true _ = _
        exact renderFields_child (o := {}) rfl rfl rfl (renderChild_text_ok rfl (xmlText_of hc)) rfl
      have hreason : renderCls (soapTable .soap12 U) (k + 1) cReason
          (.inst cReason [(py"Text", .atom (.str message))] none) (some Version.soap12.envelopeNs) true =
            .error .valueError := by
        show renderFields (soapTable .soap12 U) (renderCls (soapTable .soap12 U) k) [(py"Text", .atom (.str message))]
          (some Version.soap12.envelopeNs) true _ = _
        exact renderFields_child_error rfl rfl rfl (renderChild_lang_error rfl (xmlText_not fun hm => h ⟨hc, hm⟩))
      exact renderFields_rest_error rfl rfl rfl (renderChild_cls (c := cCode) rfl rfl hcode)
        (renderFields_child_error rfl rfl rfl (renderChild_cls_error (c := cReason) rfl rfl hreason))
    · have hcode : renderCls (soapTable .soap12 U) (k + 1) cCode (.inst cCode [(py"Value", .atom (.str code))] none)
          (some Version.soap12.envelopeNs) true = .error .valueError := by
        show renderFields (soapTable .soap12 U) (renderCls (soapTable .soap12 U) k) [(py"Value", .atom (.str code))]
          (some Version.soap12.envelopeNs) true _ = _
        exact renderFields_child_error rfl rfl rfl (renderChild_text_error rfl (xmlText_not hc))
      exact renderFields_child_error rfl rfl rfl (renderChild_cls_error (c := cCode) rfl rfl hcode)

/-! ### C42, C43, C45: outcomes and answers -/

section
variable {W : World} {d : DispId} {r : ReqId} {s : State} {q : Req}

theorem dispatch_inner (hq : s.reqs[r]? = some q) (hp : IsPost q)
    (h1 : (W.disp d).hooks.get? py"soap-request" = none) :
    dispatch W d r s = afterChain W d r (inner W d r q s).1 (inner W d r q s).2 := by
  rw [dispatch_post hq hp, handleSoap_run h1 hq]
  rfl

theorem catch_fault {o : Except Exn Ret} {c m : Str} {h : Val} (hf : IsFault o c m h) :
    ∃ resp a, catchSoapError o = .ok resp ∧ resp.soapBody = .error c m a ∧ resp.soapHeader = h := by
  cases hf with
  | raised => exact ⟨_, _, rfl, rfl, rfl⟩
  | returned => exact ⟨_, _, rfl, rfl, rfl⟩
  | response hb => exact ⟨_, _, rfl, hb, rfl⟩

theorem get_set_ct (hs : Dict Str) (k v : Str) : (Dict.set hs k v).get? k = some v := by
  induction hs with
  | nil => simp [Dict.set, Dict.get?]
  | cons p hs ih =>
    obtain ⟨k', v'⟩ := p
    unfold Dict.set
    split
    · next h => simp [Dict.get?, h]
    · next h => simp [Dict.get?, h, ih]

theorem finish_fault {resp : Response} {m : Option MethodId} {c msg : Str} {a : Option Str} {D : Dispatcher}
    (hb : resp.soapBody = .error c msg a) : finishResponse W D m resp = (do
      let x ← errorXml D.service.version (W.table D.service) W.depth c msg none resp.soapHeader
      .ok { resp with httpHeaders := Dict.set resp.httpHeaders py"Content-Type" D.service.version.contentType,
                      content := .bytes (W.write x), status := 500 }) := by
  unfold finishResponse
  simp only [hb]

theorem afterChain_eq {o : Except Exn Ret} {s' : State} {resp resp' : Response} {q' : Req}
    (h2 : (W.disp d).hooks.get? py"soap-response" = none) (ho : catchSoapError o = .ok resp)
    (hq : s'.reqs[r]? = some q') (hf : finishResponse W (W.disp d) q'.method resp = .ok resp') :
    afterChain W d r o s' = (.ok resp', s') := by
  unfold afterChain
  rw [M.lift_ok ho, M.bind_ok (getReq_some hq), M.lift_ok hf, callResponseHook_none h2]
  rfl

theorem afterChain_finish_error {o : Except Exn Ret} {s' : State} {resp : Response} {q' : Req} {e : Exn}
    (ho : catchSoapError o = .ok resp)
    (hq : s'.reqs[r]? = some q') (hf : finishResponse W (W.disp d) q'.method resp = .error e) :
    afterChain W d r o s' = (.error e, s') := by
  unfold afterChain
  rw [M.lift_ok ho, M.bind_ok (getReq_some hq), M.lift_error hf]

theorem inner_req (hq : s.reqs[r]? = some q) : ∃ q', (inner W d r q s).2.reqs[r]? = some q' := chain_req hq

/-- The body of `C42_fault`, for use in other proofs. -/
theorem fault_answer {c m : Str} (hq : s.reqs[r]? = some q) (hp : IsPost q)
    (h1 : (W.disp d).hooks.get? py"soap-request" = none) (h2 : (W.disp d).hooks.get? py"soap-response" = none)
    (hD : 4 ≤ W.depth) (hf : IsFault (inner W d r q s).1 c m Val.none) (hc : XmlOk c) (hm : XmlOk m) :
    ∃ resp, dispatch W d r s = (.ok resp, (inner W d r q s).2) ∧ resp.status = 500 ∧
      resp.content = .bytes (W.write (faultDoc (W.disp d).service.version c m none)) ∧
      resp.httpHeaders.get? py"Content-Type" = some (W.disp d).service.version.contentType := by
  obtain ⟨k, hk⟩ : ∃ k, W.depth = k + 4 := ⟨W.depth - 4, by omega⟩
  obtain ⟨q', hq'⟩ := inner_req (W := W) (d := d) hq
  obtain ⟨resp, a, ho, hb, hh⟩ := catch_fault hf
  have hx := errorXml_ok (W.disp d).service.version W.user k (actor := none) hc hm (by simp)
  have hfin := finish_fault (W := W) (m := q'.method) (D := W.disp d) hb
  rw [hh, hk, World.table, hx] at hfin
  rw [dispatch_inner hq hp h1]
  exact ⟨_, afterChain_eq h2 ho hq' hfin, rfl, rfl, get_set_ct _ _ _⟩

/-- **C42.** A SOAPError raised or returned by a middleware or the method - or put into a response - is answered with
status 500 and the fault envelope with its code and message, in the content type of the SOAP version. -/
theorem C42_fault (W : World) (d : DispId) (r : ReqId) (s : State) (q : Req) (c m : Str)
    (hq : s.reqs[r]? = some q) (hp : IsPost q)
    (h1 : (W.disp d).hooks.get? py"soap-request" = none) (h2 : (W.disp d).hooks.get? py"soap-response" = none)
    (hD : 4 ≤ W.depth) (hf : IsFault (inner W d r q s).1 c m Val.none) (hc : XmlOk c) (hm : XmlOk m) :
    ∃ resp, outcome (dispatch W d r) s = .ok resp ∧ resp.status = 500 ∧
      resp.content = .bytes (W.write (faultDoc (W.disp d).service.version c m none)) ∧
      resp.httpHeaders.get? py"Content-Type" = some (W.disp d).service.version.contentType := by
  obtain ⟨resp, h, hr⟩ := fault_answer hq hp h1 h2 hD hf hc hm
  exact ⟨resp, by rw [outcome, h], hr⟩

/-- **C42 (limits).** A SOAPError whose code or message contains a character that XML does not allow is not answered:
a ValueError escapes. -/
theorem C42_illegal (W : World) (d : DispId) (r : ReqId) (s : State) (q : Req) (c m : Str)
    (hq : s.reqs[r]? = some q) (hp : IsPost q) (h1 : (W.disp d).hooks.get? py"soap-request" = none)
    (hD : 4 ≤ W.depth) (hf : IsFault (inner W d r q s).1 c m Val.none) (hc : ¬ (XmlOk c ∧ XmlOk m)) :
    outcome (dispatch W d r) s = .error .valueError := by
  obtain ⟨k, hk⟩ : ∃ k, W.depth = k + 4 := ⟨W.depth - 4, by omega⟩
  obtain ⟨q', hq'⟩ := inner_req (W := W) (d := d) hq
  obtain ⟨resp, a, ho, hb, hh⟩ := catch_fault hf
  have hx := errorXml_bad (W.disp d).service.version W.user k hc
  have hfin := finish_fault (W := W) (m := q'.method) (D := W.disp d) hb
  rw [hh, hk, World.table, hx] at hfin
  rw [outcome, dispatch_inner hq hp h1, afterChain_finish_error ho hq' hfin]

/-- **C43.** Any other exception leaves the dispatcher as it is, and no response hook is called. -/
theorem C43_propagates (W : World) (d : DispId) (r : ReqId) (s : State) (q : Req) (e : Exn)
    (hq : s.reqs[r]? = some q) (hp : IsPost q) (h1 : (W.disp d).hooks.get? py"soap-request" = none)
    (he : (inner W d r q s).1 = .error e) (ho : OtherError e) :
    dispatch W d r s = (.error e, (inner W d r q s).2) := by
  rw [dispatch_inner hq hp h1]
  have : catchSoapError (inner W d r q s).1 = .error e := by
    rw [he]
    cases e <;> first | rfl | exact absurd rfl (ho _ _ _)
  unfold afterChain
  rw [M.lift_error this]

theorem finish_ok {D : Dispatcher} {m : Option MethodId} {resp resp' : Response}
    (h : finishResponse W D m resp = .ok resp') :
    resp'.httpHeaders = Dict.set resp.httpHeaders py"Content-Type" D.service.version.contentType ∧
    (∃ b, resp'.content = .bytes b) ∧
    ((∃ c msg a, resp.soapBody = .error c msg a ∧ resp'.status = 500) ∨
      (∃ v, resp.soapBody = .val v ∧ resp'.status = resp.status)) := by
  unfold finishResponse at h
  simp only at h
  split at h
  · next c msg a hb =>
    obtain ⟨x, _, h⟩ := bind_eq_ok.1 h
    injection h with h
    subst h
    exact ⟨rfl, ⟨_, rfl⟩, .inl ⟨c, msg, a, hb, rfl⟩⟩
  · next v hb =>
    obtain ⟨t, _, h⟩ := bind_eq_ok.1 h
    obtain ⟨x, _, h⟩ := bind_eq_ok.1 h
    injection h with h
    subst h
    exact ⟨rfl, ⟨_, rfl⟩, .inr ⟨v, hb, rfl⟩⟩

end

/-- The status of the response object a method or middleware returns; anything else is put into a fresh one. -/
def statusOf : Ret → Nat
  | .response r => r.status
  | .obj _ => 200

/-- **C45.** Every answer to a SOAP call has the content type of the SOAP version and a body of bytes; the status is 500
for faults and that of the response object for everything else. -/
theorem C45_soap (W : World) (d : DispId) (r : ReqId) (s : State) (q : Req) (resp : Response)
    (hq : s.reqs[r]? = some q) (hp : IsPost q)
    (h1 : (W.disp d).hooks.get? py"soap-request" = none) (h2 : (W.disp d).hooks.get? py"soap-response" = none)
    (h : outcome (dispatch W d r) s = .ok resp) :
    resp.httpHeaders.get? py"Content-Type" = some (W.disp d).service.version.contentType ∧
    (∃ b, resp.content = .bytes b) ∧
    (((∃ c m hd, IsFault (inner W d r q s).1 c m hd) ∧ resp.status = 500) ∨
      ∃ ret, (inner W d r q s).1 = .ok ret ∧ (∀ c m hd, ¬ IsFault (.ok ret) c m hd) ∧ resp.status = statusOf ret) := by
  obtain ⟨q', hq'⟩ := inner_req (W := W) (d := d) hq
  rw [outcome, dispatch_inner hq hp h1] at h
  cases ho : catchSoapError (inner W d r q s).1 with
  | error e =>
    unfold afterChain at h
    rw [M.lift_error ho] at h
    cases h
  | ok resp0 =>
    cases hf : finishResponse W (W.disp d) q'.method resp0 with
    | error e => rw [afterChain_finish_error ho hq' hf] at h; cases h
    | ok resp1 =>
      rw [afterChain_eq h2 ho hq' hf] at h
      injection h with h
      subst h
      obtain ⟨g1, g2, g3⟩ := finish_ok hf
      refine ⟨by rw [g1]; exact get_set_ct _ _ _, g2, ?_⟩
      rcases g3 with ⟨c, m, a, hb, hs⟩ | ⟨v, hb, hs⟩
      · refine .inl ⟨?_, hs⟩
        cases hi : (inner W d r q s).1 with
        | ok ret =>
          rw [hi] at ho
          injection ho with ho
          cases ret with
          | response rr =>
            have ho : rr = resp0 := ho
            subst ho
            exact ⟨c, m, _, .response hb⟩
          | obj o =>
            have ho : mkResponse o = resp0 := ho
            subst ho
            have hb : o = .error c m a := hb
            subst hb
            exact ⟨c, m, _, .returned⟩
        | error e =>
          rw [hi] at ho
          cases e <;> first | exact ⟨_, _, _, .raised⟩ | cases ho
      · refine .inr ?_
        cases hi : (inner W d r q s).1 with
        | ok ret =>
          rw [hi] at ho
          injection ho with ho
          refine ⟨ret, rfl, ?_, ?_⟩
          · intro c m hd hF
            cases ret with
            | response rr =>
              have ho : rr = resp0 := ho
              subst ho
              cases hF with
              | response hb' => rw [hb] at hb'; cases hb'
            | obj o =>
              have ho : mkResponse o = resp0 := ho
              subst ho
              have hb : o = .val v := hb
              subst hb
              cases hF
          · rw [hs]
            cases ret with
            | response rr => have ho : rr = resp0 := ho; subst ho; rfl
            | obj o => have ho : mkResponse o = resp0 := ho; subst ho; rfl
        | error e =>
          rw [hi] at ho
          cases e with
          | soapError c m a =>
            injection ho with ho
            subst ho
            cases hb
          | _ => cases ho

/-! ### C41: middlewares -/

theorem run_pass (nx : Unit → ReqId → M Ret) (r : ReqId) : (passThrough r).run nx = nx () r := by
  funext s
  unfold passThrough Prog.run M.bind M.outcome
  rcases h : nx () r s with ⟨o, s'⟩
  cases o <;> rfl

theorem chain_congr (W : World) {ms ms' : List Middleware} (h : chain W ms = chain W ms') (pre : List Middleware) :
    chain W (pre ++ ms) = chain W (pre ++ ms') := by
  induction pre with
  | nil => exact h
  | cons m pre ih =>
    funext r
    show (m r).run (fun _ r' => chain W (pre ++ ms) r') = (m r).run (fun _ r' => chain W (pre ++ ms') r')
    rw [ih]

/-- **C41 (pass-through).** A middleware that only calls the next one can be removed from any place of the list. -/
theorem C41_pass_through (W : World) (ms ms' : List Middleware) :
    chain W (ms ++ passThrough :: ms') = chain W (ms ++ ms') := by
  refine chain_congr W ?_ ms
  funext r
  exact run_pass _ r

/-- **C41 (nesting).** The first middleware is the outermost one: middlewares that log before and after the next step do
so in list order before, and in reverse order after everything inside; result and exceptions pass through them. -/
theorem C41_nesting (W : World) (l : List (Exn × Exn)) (ms : List Middleware) (r : ReqId) (s : State) :
    chain W (l.map (fun p => bracket p.1 p.2) ++ ms) r s =
      let i := chain W ms r { s with trace := s.trace ++ l.map fun p => .log p.1 }
      (i.1, { i.2 with trace := i.2.trace ++ l.reverse.map fun p => .log p.2 }) := by
  induction l generalizing s with
  | nil => simp
  | cons p l ih =>
    have h1 : chain W ((p :: l).map (fun p => bracket p.1 p.2) ++ ms) r s =
        let i := chain W (l.map (fun p => bracket p.1 p.2) ++ ms) r { s with trace := s.trace ++ [.log p.1] }
        (i.1, { i.2 with trace := i.2.trace ++ [.log p.2] }) := by
      show M.bind (M.outcome (chain W (l.map (fun p => bracket p.1 p.2) ++ ms) r)) (fun o => Prog.run _ _)
        { s with trace := s.trace ++ [.log p.1] } = _
      unfold M.bind M.outcome
      simp only
      rcases chain W (l.map (fun p => bracket p.1 p.2) ++ ms) r { s with trace := s.trace ++ [.log p.1] } with ⟨o, s'⟩
      cases o <;> rfl
    rw [h1, ih]
    simp

theorem NoNext.run {α : Type} {p : Prog Unit α} (h : NoNext p) (nx nx' : Unit → ReqId → M Ret) :
    p.run nx = p.run nx' := by
  induction h with
  | ret a => rfl
  | raise e => rfl
  | get _ ih => unfold Prog.run; congr; funext q; exact ih q
  | set _ ih => unfold Prog.run; congr; funext q; exact ih
  | new _ ih => unfold Prog.run; congr; funext q; exact ih q
  | log _ ih => unfold Prog.run; congr; funext q; exact ih

/-- **C41 (stopping).** Nothing after a middleware that does not call the next step matters, and no method runs. -/
theorem C41_stop (W : World) (pre ms ms' : List Middleware) (m : Middleware) (h : ∀ r, NoNext (m r)) :
    chain W (pre ++ m :: ms) = chain W (pre ++ m :: ms') ∧
    ∀ r s, ∀ e ∈ happened (chain W (pre ++ m :: ms) r) s, e.IsLog := by
  constructor
  · refine chain_congr W ?_ pre
    funext r
    exact (h r).run _ _
  · intro r s
    refine Emits.happened ?_ s
    induction pre generalizing r with
    | nil =>
      show Emits _ ((m r).run fun _ r' => chain W ms r')
      rw [(h r).run _ fun _ _ => M.throw .typeError]
      exact .run (fun _ => trivial) (fun _ _ => .throw _) _
    | cons m' pre ih =>
      exact .run (fun _ => trivial) (fun _ r' => ih r') _

/-! ### C44: the middlewares of the library -/

section
variable (W : World) (ms : List Middleware) (r : ReqId) (s s' : State)

theorem chain_next {m : Middleware} {k : Except Exn Ret → Prog Unit Ret} (h : m r = .next () r k) :
    chain W (m :: ms) r s = (k (chain W ms r s).1).run (fun _ r' => chain W ms r') (chain W ms r s).2 := by
  have h1 : chain W (m :: ms) r = (m r).run (fun _ r' => chain W ms r') := rfl
  have h2 : ∀ nx : Unit → ReqId → M Ret, (Prog.next () r k).run nx s = (k (nx () r s).1).run nx (nx () r s).2 :=
    fun _ => rfl
  rw [h1, h, h2]

/-- **C44 (results).** `ExceptionToSoapFault` returns what the inner middlewares return. -/
theorem C44_result (tb : Bool) (v : Ret) (h : chain W ms r s = (.ok v, s')) :
    chain W (exceptionToSoapFault W tb :: ms) r s = (.ok v, s') := by
  rw [chain_next W ms r s rfl, h]
  rfl

/-- **C44 (SOAPErrors).** It returns SOAPErrors that were raised, unchanged. -/
theorem C44_soap_error (tb : Bool) (c m : Str) (a : Option Str)
    (h : chain W ms r s = (.error (.soapError c m a), s')) :
    chain W (exceptionToSoapFault W tb :: ms) r s = (.ok (.obj (.error c m a)), s') := by
  rw [chain_next W ms r s rfl, h]
  rfl

theorem server_code (v : Version) : serverCode v = v.server := by cases v <;> rfl

/-- **C44 (other exceptions).** Any other exception becomes a Server error that describes it or gives its traceback. -/
theorem C44_other_error (tb : Bool) (e : Exn) (he : OtherError e) (q : Req) (d : DispId)
    (h : chain W ms r s = (.error e, s')) (hq : s'.reqs[r]? = some q) (hd : q.dispatcher = some d) :
    chain W (exceptionToSoapFault W tb :: ms) r s =
      (.ok (.obj (.error (serverCode (W.disp d).service.version) (if tb then W.traceback e else W.describe e) none)), s') := by
  rw [server_code]
  have : chain W (exceptionToSoapFault W tb :: ms) r s = (Prog.get (ν := Unit) r fun q => match q.dispatcher with
      | some d => .ret (Ret.obj (.error (W.disp d).service.version.server
          (if tb then W.traceback e else W.describe e) none))
      | none => .raise .attributeError).run (fun _ r' => chain W ms r') s' := by
    rw [chain_next W ms r s rfl, h]
    cases e <;> first | rfl | exact absurd rfl (he _ _ _)
  rw [this]
  unfold Prog.run
  rw [M.bind_ok (getReq_some hq)]
  simp only [hd]
  rfl

/-- **C44 (logger).** `ExceptionLogger` returns the same results and raises the same exceptions as the inner middlewares;
it logs an exception exactly if it is of the configured classes. -/
theorem C44_logger (classes : Exn → Bool) (o : Except Exn Ret) (h : chain W ms r s = (o, s')) :
    ∃ logs, chain W (exceptionLogger classes :: ms) r s = (o, { s' with trace := s'.trace ++ logs }) ∧
      ((∃ e, o = .error e ∧ classes e = true ∧ logs = [.log e]) ∨
        ((∀ e, o = .error e → classes e = false) ∧ logs = [])) := by
  rw [chain_next W ms r s rfl, h]
  cases o with
  | ok v => exact ⟨[], by simp; rfl, .inr ⟨by simp, rfl⟩⟩
  | error e =>
    cases hc : classes e with
    | true => exact ⟨[.log e], by simp only [hc]; rfl, .inl ⟨e, rfl, hc, rfl⟩⟩
    | false =>
      exact ⟨[], by simp only [hc, List.append_nil]; rfl, .inr ⟨fun e' h => by injection h with h; rw [← h]; exact hc, rfl⟩⟩

end

/-- **C44 (answer).** With `ExceptionToSoapFault` as first middleware, an exception of the method or another middleware
that is not a SOAPError is answered with a Server fault, provided that the request still knows its dispatcher. -/
theorem C44_answer (W : World) (d : DispId) (r : ReqId) (s s' : State) (q q' : Req) (tb : Bool) (ms : List Middleware)
    (e : Exn) (hq : s.reqs[r]? = some q) (hp : IsPost q)
    (h1 : (W.disp d).hooks.get? py"soap-request" = none) (h2 : (W.disp d).hooks.get? py"soap-response" = none)
    (hD : 4 ≤ W.depth) (hms : (W.disp d).middlewares = exceptionToSoapFault W tb :: ms)
    (he : OtherError e) (h : chain W ms r (s.begin d r q) = (.error e, s'))
    (hq' : s'.reqs[r]? = some q') (hd : q'.dispatcher = some d)
    (hx : XmlOk (if tb then W.traceback e else W.describe e)) :
    ∃ resp, outcome (dispatch W d r) s = .ok resp ∧ resp.status = 500 ∧
      resp.content = .bytes (W.write (faultDoc (W.disp d).service.version (serverCode (W.disp d).service.version)
        (if tb then W.traceback e else W.describe e) none)) := by
  rw [server_code]
  have hi : (inner W d r q s).1 = .ok (.obj (.error (W.disp d).service.version.server
      (if tb then W.traceback e else W.describe e) none)) := by
    unfold inner
    rw [hms, C44_other_error W ms r (s.begin d r q) s' tb e he q' d h hq' hd, server_code]
  obtain ⟨resp, g1, g2, g3, _⟩ := C42_fault W d r s q (W.disp d).service.version.server
    (if tb then W.traceback e else W.describe e) hq hp h1 h2 hD (by rw [hi]; exact .returned)
    (by cases (W.disp d).service.version <;> (unfold XmlOk; decide)) hx
  exact ⟨resp, g1, g2, g3⟩

/-! ### C46: hooks -/

theorem enters_callRequestHook (d : Dispatcher) (name : Str) (r : ReqId) (s : State) :
    Enters (d.hooks.get? name) name r s (callRequestHook d name r s) := by
  unfold callRequestHook
  simp only [M_bind]
  cases hh : d.hooks.get? name with
  | none => exact .missing rfl
  | some h =>
    simp only
    rcases hr : (h r none).run' (s.called name) with ⟨o, s'⟩
    have e1 : ∀ (f : HookRet → M ReqId), M.bind (M.bind (emit (.hook name)) fun _ => (h r none).run') f s =
        M.bind (h r none).run' f (s.called name) := fun f => by
      rw [M.bind_assoc]
      rfl
    rw [e1]
    cases o with
    | error e => rw [M.bind_error hr]; exact .raised rfl hr
    | ok x =>
      rw [M.bind_ok hr]
      cases x with
      | request r' => exact .chosen rfl hr
      | response resp => exact .wrong rfl hr (fun r' => by simp)
      | other => exact .wrong rfl hr (fun r' => by simp)

theorem responds_callResponseHook (d : Dispatcher) (name : Str) (r : ReqId) (resp : Response) (s : State) :
    Responds (d.hooks.get? name) name r resp s (callResponseHook d name r resp s) := by
  unfold callResponseHook
  simp only [M_bind]
  cases hh : d.hooks.get? name with
  | none => exact .missing rfl
  | some h =>
    simp only
    rcases hr : (h r (some resp)).run' (s.called name) with ⟨o, s'⟩
    have e1 : ∀ (f : HookRet → M Response), M.bind (M.bind (emit (.hook name)) fun _ => (h r (some resp)).run') f s =
        M.bind (h r (some resp)).run' f (s.called name) := fun f => by
      rw [M.bind_assoc]
      rfl
    rw [e1]
    cases o with
    | error e => rw [M.bind_error hr]; exact .raised rfl hr
    | ok x =>
      rw [M.bind_ok hr]
      cases x with
      | request r' => exact .wrong rfl hr (fun r' => by simp)
      | response resp => exact .chosen rfl hr
      | other => exact .wrong rfl hr (fun r' => by simp)

/-- Hooks around a computation. -/
theorem hooked_of {d d0 : Dispatcher} {n1 n2 : Str} {r : ReqId} {s : State} {base : ReqId → M Response}
    {mid : ReqId → M Response} (h0 : d0.hooks = [])
    (hb : ∀ r, base r = M.bind (callRequestHook d0 n1 r) fun r => M.bind (mid r) fun resp =>
      callResponseHook d0 n2 r resp) :
    Hooked (d.hooks.get? n1) (d.hooks.get? n2) n1 n2 base r s
      (M.bind (callRequestHook d n1 r) (fun r => M.bind (mid r) fun resp => callResponseHook d n2 r resp) s) := by
  have hb' : ∀ r, base r = mid r := by
    intro r
    rw [hb, callRequestHook_none (by rw [h0]; rfl), M.pure_bind]
    have : (fun resp => callResponseHook d0 n2 r resp) = M.pure := by
      funext resp
      exact callResponseHook_none (by rw [h0]; rfl)
    rw [this, M.bind_pure]
  have he := enters_callRequestHook d n1 r s
  rcases h1 : callRequestHook d n1 r s with ⟨o, s1⟩
  rw [h1] at he
  cases o with
  | error e => rw [M.bind_error h1]; exact .stopped he
  | ok r' =>
    rw [M.bind_ok h1]
    rcases h2 : mid r' s1 with ⟨o, s2⟩
    cases o with
    | error e => rw [M.bind_error h2]; exact .failed he (by rw [hb', h2])
    | ok resp =>
      rw [M.bind_ok h2]
      exact .answered he (by rw [hb', h2]) (responds_callResponseHook d n2 r' resp s2)

theorem elementByName_noHooks (W : World) (name : Str) (n : Nat) :
    elementByName W.noHooks name n = elementByName W name n := by
  induction n with
  | zero => rfl
  | succ n ih =>
    funext s
    unfold elementByName
    rw [ih]
    rfl

theorem parseInput_noHooks (W : World) (S : Service) (m : Method) (x : Xml) :
    parseInput W.noHooks S m x = parseInput W S m x := by
  unfold parseInput Service.findElement
  simp only [elementByName_noHooks]
  rfl

theorem prepareRequest_noHooks (W : World) (d : DispId) (r : ReqId) :
    prepareRequest W.noHooks (W.noHooks.disp d) r = prepareRequest W (W.disp d) r := by
  have h1 : ∀ c, readAndValidate W.noHooks (W.noHooks.disp d) c = readAndValidate W (W.disp d) c := fun _ => rfl
  have h2 : ∀ env x, findHandler W.noHooks (W.noHooks.disp d).service env x = findHandler W (W.disp d).service env x :=
    fun _ _ => rfl
  have h3 : ∀ m h, parseHeaderPart W.noHooks (W.noHooks.disp d).service (W.noHooks.method m) h =
    parseHeaderPart W (W.disp d).service (W.method m) h := fun _ _ => rfl
  have h4 : ∀ m x, parseInput W.noHooks (W.noHooks.disp d).service (W.noHooks.method m) x =
    parseInput W (W.disp d).service (W.method m) x := fun m x => parseInput_noHooks W _ _ x
  unfold prepareRequest
  simp only [h1, h2, h3, h4]

theorem callMethod_noHooks (W : World) : callMethod W.noHooks = callMethod W := by
  funext r
  unfold callMethod
  simp only [prepareRequest_noHooks]
  rfl

theorem chain_noHooks (W : World) (ms : List Middleware) : chain W.noHooks ms = chain W ms := by
  induction ms with
  | nil => exact callMethod_noHooks W
  | cons m ms ih =>
    funext r
    show (m r).run (fun _ r' => chain W.noHooks ms r') = (m r).run (fun _ r' => chain W ms r')
    rw [ih]

/-- **C46 (SOAP).** Hooks of a SOAP call: the request hook chooses the request, everything is as without hooks, then the
response hook chooses the response; a hook that gives anything else leads to a TypeError. -/
theorem C46_soap (W : World) (d : DispId) (r : ReqId) (s : State) :
    Hooked ((W.disp d).hooks.get? py"soap-request") ((W.disp d).hooks.get? py"soap-response") py"soap-request"
      py"soap-response" (handleSoap W.noHooks d) r s (handleSoap W d r s) := by
  have key : ∀ (W : World) r, handleSoap W d r = M.bind (callRequestHook (W.disp d) py"soap-request" r) (fun r =>
      M.bind (M.bind (getReq r) fun q => M.bind (setReq r { q with dispatcher := some d }) fun _ =>
        M.bind (M.outcome (chain W (W.disp d).middlewares r)) fun o => M.bind (M.lift (catchSoapError o)) fun resp =>
          M.bind (getReq r) fun q => M.lift (finishResponse W (W.disp d) q.method resp)) fun resp =>
        callResponseHook (W.disp d) py"soap-response" r resp) := by
    intro W r
    unfold handleSoap
    simp only [M_bind, M.bind_assoc]
  rw [key W]
  refine hooked_of (d0 := W.noHooks.disp d) rfl fun r => ?_
  rw [key W.noHooks, chain_noHooks]
  rfl

/-- **C46 (WSDL).** The same for WSDL requests. -/
theorem C46_wsdl (W : World) (d : DispId) (r : ReqId) (s : State) :
    Hooked ((W.disp d).hooks.get? py"wsdl-request") ((W.disp d).hooks.get? py"wsdl-response") py"wsdl-request"
      py"wsdl-response" (handleWsdl W.noHooks d) r s (handleWsdl W d r s) := by
  have key : ∀ (W : World) r, handleWsdl W d r = M.bind (callRequestHook (W.disp d) py"wsdl-request" r) (fun r =>
      M.bind (M.bind (getReq r) fun q => M.bind (M.lift (wsdlFor W (W.disp d) q.environ)) fun wsdl =>
        M.pure (mkResponse (.val (.atom (.str py"wsdl"))) (content := .bytes wsdl)
          (headers := [(py"Content-Type", py"text/xml")]))) fun resp =>
        callResponseHook (W.disp d) py"wsdl-response" r resp) := by
    intro W r
    unfold handleWsdl
    simp only [M_bind, M.bind_assoc, M.pure_bind]
  rw [key W]
  exact hooked_of (d0 := W.noHooks.disp d) rfl fun r => key W.noHooks r

/-- **C46 (schemas).** The same for schema requests, except that the response hook is the one for WSDLs. -/
theorem C46_xsd (W : World) (d : DispId) (r : ReqId) (s : State) :
    Hooked ((W.disp d).hooks.get? py"xsd-request") ((W.disp d).hooks.get? py"wsdl-response") py"xsd-request"
      py"wsdl-response" (handleXsd W.noHooks d) r s (handleXsd W d r s) := by
  have key : ∀ (W : World) r, handleXsd W d r = M.bind (callRequestHook (W.disp d) py"xsd-request" r) (fun r =>
      M.bind (M.bind (getReq r) fun q => M.pure (xsdAnswer (W.disp d) q.environ)) fun resp =>
        callResponseHook (W.disp d) py"wsdl-response" r resp) := by
    intro W r
    unfold handleXsd
    simp only [M_bind, M.bind_assoc, M.pure_bind]
  rw [key W]
  exact hooked_of (d0 := W.noHooks.disp d) rfl fun r => key W.noHooks r

theorem isLog_run {α : Type} (p : Prog Empty α) (s : State) :
    ∃ es, (p.run' s).2.trace = s.trace ++ es ∧ ∀ e ∈ es, e.IsLog :=
  Emits.run' (P := Event.IsLog) (fun _ => trivial) p s

theorem Enters.calls {hook : Option Hook} {name : Str} {r : ReqId} {s : State} {x : Except Exn ReqId × State}
    (h : Enters hook name r s x) : ∃ es, x.2.trace = s.trace ++ es ∧ HookCall hook name es := by
  have key : ∀ h : Hook, ∃ es, ((h r none).run' (s.called name)).2.trace = s.trace ++ es ∧ HookCall (some h) name es := by
    intro h
    obtain ⟨es, h1, h2⟩ := isLog_run (h r none) (s.called name)
    exact ⟨.hook name :: es, by rw [h1]; simp [State.called], es, rfl, h2⟩
  cases h with
  | missing hh => subst hh; exact ⟨[], by simp, rfl⟩
  | @chosen h _ _ hh hr => subst hh; have := key h; rwa [hr] at this
  | @wrong h _ _ hh hr _ => subst hh; have := key h; rwa [hr] at this
  | @raised h _ _ hh hr => subst hh; have := key h; rwa [hr] at this

theorem Responds.calls {hook : Option Hook} {name : Str} {r : ReqId} {resp : Response} {s : State}
    {x : Except Exn Response × State} (h : Responds hook name r resp s x) :
    ∃ es, x.2.trace = s.trace ++ es ∧ HookCall hook name es := by
  have key : ∀ h : Hook, ∃ es, ((h r (some resp)).run' (s.called name)).2.trace = s.trace ++ es ∧
      HookCall (some h) name es := by
    intro h
    obtain ⟨es, h1, h2⟩ := isLog_run (h r (some resp)) (s.called name)
    exact ⟨.hook name :: es, by rw [h1]; simp [State.called], es, rfl, h2⟩
  cases h with
  | missing hh => subst hh; exact ⟨[], by simp, rfl⟩
  | @chosen h _ _ hh hr => subst hh; have := key h; rwa [hr] at this
  | @wrong h _ _ hh hr _ => subst hh; have := key h; rwa [hr] at this
  | @raised h _ _ hh hr => subst hh; have := key h; rwa [hr] at this

theorem Hooked.calls {h1 h2 : Option Hook} {n1 n2 : Str} {base : ReqId → M Response} {r : ReqId} {s : State}
    {x : Except Exn Response × State} (h : Hooked h1 h2 n1 n2 base r s x) (hb : ∀ r, Emits Event.NotHook (base r)) :
    ∃ pre mid post, x.2.trace = s.trace ++ (pre ++ mid ++ post) ∧ HookCall h1 n1 pre ∧ (∀ e ∈ mid, e.NotHook) ∧
      (post = [] ∨ HookCall h2 n2 post) ∧ ((∃ resp, x.1 = .ok resp) → HookCall h2 n2 post) := by
  cases h with
  | stopped he =>
    obtain ⟨es, g1, g2⟩ := he.calls
    exact ⟨es, [], [], by simpa using g1, g2, by simp, .inl rfl, by simp⟩
  | failed he hr =>
    obtain ⟨es, g1, g2⟩ := he.calls
    obtain ⟨es', g3, g4⟩ := hb _ _
    rw [hr] at g3
    exact ⟨es, es', [], by rw [g3, g1]; simp, g2, g4, .inl rfl, by simp⟩
  | answered he hr hx =>
    obtain ⟨es, g1, g2⟩ := he.calls
    obtain ⟨es', g3, g4⟩ := hb _ _
    rw [hr] at g3
    obtain ⟨es2, g5, g6⟩ := hx.calls
    exact ⟨es, es', es2, by rw [g5, g3, g1]; simp, g2, g4, .inr g6, fun _ => g6⟩

theorem handleSoap_noHooks_emits (W : World) (d : DispId) (r : ReqId) :
    Emits Event.NotHook (handleSoap W.noHooks d r) := by
  unfold handleSoap
  simp only [M_bind]
  refine .bind ?_ fun r => .bind (.getReq r) fun q => .bind (.setReq _ _) fun _ =>
    .bind (.outcome ((chain_emits _ _ r).mono fun e h => h.2)) fun o => .bind (.lift _) fun resp =>
    .bind (.getReq r) fun q => .bind (.lift _) fun resp => ?_
  · rw [callRequestHook_none rfl]; exact .pure _
  · rw [callResponseHook_none rfl]; exact .pure _

/-- **C46 (once, and when).** During a SOAP call the request hook, if there is one, is called exactly once and before
everything else, the response hook is called at most once and after everything else - exactly once if there is an answer
- and no other hook is called. -/
theorem C46_calls (W : World) (d : DispId) (r : ReqId) (s : State) (q : Req) (hq : s.reqs[r]? = some q) (hp : IsPost q) :
    ∃ pre mid post, happened (dispatch W d r) s = pre ++ mid ++ post ∧
      HookCall ((W.disp d).hooks.get? py"soap-request") py"soap-request" pre ∧ (∀ e ∈ mid, e.NotHook) ∧
      (post = [] ∨ HookCall ((W.disp d).hooks.get? py"soap-response") py"soap-response" post) ∧
      ((∃ resp, outcome (dispatch W d r) s = .ok resp) →
        HookCall ((W.disp d).hooks.get? py"soap-response") py"soap-response" post) := by
  obtain ⟨pre, mid, post, h1, h2⟩ := (C46_soap W d r s).calls (handleSoap_noHooks_emits W d)
  unfold happened outcome
  rw [dispatch_post hq hp]
  refine ⟨pre, mid, post, by rw [h1, List.drop_left], h2⟩

/-- **C46 (never).** The hook `xsd-response` is never called. -/
theorem C46_no_xsd_response (W : World) (d : DispId) (r : ReqId) (s : State) :
    .hook py"xsd-response" ∉ happened (dispatch W d r) s := by
  intro hmem
  have hlog : ∀ e, Event.log e ≠ .hook py"xsd-response" := fun _ => by simp
  have : Emits (fun e => e ≠ .hook py"xsd-response") (dispatch W d r) := by
    unfold dispatch
    simp only [M_bind]
    refine .bind (.getReq r) fun q => ?_
    split
    · exact handleWsdl_emits hlog W d r (by simp) (by simp)
    · split
      · exact handleXsd_emits hlog W d r (by simp) (by simp)
      · split
        · unfold handleSoap
          simp only [M_bind]
          refine .bind (callRequestHook_emits hlog _ _ _ (by simp)) fun r => .bind (.getReq r) fun q =>
            .bind (.setReq _ _) fun _ => .bind (.outcome ((chain_emits W _ r).mono ?_)) fun o => .bind (.lift _) fun resp =>
            .bind (.getReq r) fun q => .bind (.lift _) fun resp => callResponseHook_emits hlog _ _ _ _ (by simp)
          rintro e ⟨_, h⟩ rfl
          exact h
        · exact .pure _
  exact this.happened s _ hmem rfl

/-- **C46 (names).** A dispatcher accepts exactly the hook tables all of whose names begin with one of the six hook
names; there is no check that they end there. -/
theorem C46_names (names : List Str) :
    (checkHooks names = .ok () ↔ ∀ n ∈ names, ∃ kind ∈ [py"soap", py"wsdl", py"xsd"],
      ∃ dir ∈ [py"request", py"response"], ∃ rest, n = kind ++ py"-" ++ dir ++ rest) ∧
    (checkHooks names = .ok () ∨ checkHooks names = .error .keyError) := by
  have key : ∀ n : Str, (hookNames.any fun p => startsWith p n) = true ↔ ∃ kind ∈ [py"soap", py"wsdl", py"xsd"],
      ∃ dir ∈ [py"request", py"response"], ∃ rest, n = kind ++ py"-" ++ dir ++ rest := by
    intro n
    have hp : ∀ p : Str, startsWith p n = true ↔ ∃ rest, n = p ++ rest := by
      intro p
      unfold startsWith
      rw [List.isPrefixOf_iff_prefix]
      exact ⟨fun ⟨t, ht⟩ => ⟨t, ht.symm⟩, fun ⟨t, ht⟩ => ⟨t, ht.symm⟩⟩
    simp only [hookNames, List.any_cons, List.any_nil, Bool.or_eq_true, hp, List.mem_cons, List.not_mem_nil, or_false,
      exists_eq_or_imp, exists_eq_left, Bool.false_eq_true]
    simp only [List.cons_append, List.nil_append, or_assoc]
  unfold checkHooks
  constructor
  · split
    · next h => exact ⟨fun _ n hn => (key n).1 (List.all_eq_true.1 h n hn), fun _ => rfl⟩
    · next h => exact ⟨fun h' => (by cases h'), fun h' => absurd (List.all_eq_true.2 fun n hn => (key n).2 (h' n hn)) h⟩
  · split
    · exact .inl rfl
    · exact .inr rfl

/-! ### Examples -/

namespace ExS

/-- The example service with another function, middlewares and hooks. -/
def with' (f : ReqId → Val → Prog Empty Ret) (ms : List Middleware := []) (hooks : Dict Hook := []) : World :=
  { world with
    method := fun _ => { hello with function := some f }
    disp := fun _ => { disp true with middlewares := ms, hooks := hooks } }

def call : State := { reqs := [request py"POST" [1]] }

/-- An answer: the request is read, the method called, its result rendered. -/
example : (outcome (dispatch world 0 0) call).map (fun r => (r.status, r.content, r.httpHeaders)) =
    .ok (200, .bytes [0], [(py"Content-Type", py"text/xml")]) := by rfl

/-- C42: a method that raises or returns a SOAPError. -/
example : ∃ resp, outcome (dispatch (with' fun _ _ => .raise (.soapError py"Server" py"no" (some py"me"))) 0 0) call = .ok resp ∧
    resp.status = 500 := by
  obtain ⟨resp, h1, h2, _⟩ := C42_fault (with' fun _ _ => .raise (.soapError py"Server" py"no" (some py"me"))) 0 0 call _
    py"Server" py"no" rfl rfl rfl rfl (by decide) (IsFault.raised (a := some py"me")) (by unfold XmlOk; decide)
    (by unfold XmlOk; decide)
  exact ⟨resp, h1, h2⟩

/-- C42: a NUL in the message. -/
example : outcome (dispatch (with' fun _ _ => .ret (.obj (.error py"Server" [Char.ofNat 0] none))) 0 0) call =
    .error .valueError :=
  C42_illegal _ 0 0 call _ py"Server" [Char.ofNat 0] rfl rfl rfl (by decide)
    (IsFault.response (resp := mkResponse (.error py"Server" [Char.ofNat 0] none)) (a := none) rfl)
    (fun h => absurd (h.2 _ (List.mem_singleton.2 rfl)) (by decide))

/-- C43: another exception. -/
example : outcome (dispatch (with' fun _ _ => .raise (.user 7)) 0 0) call = .error (.user 7) := by
  rw [outcome, C43_propagates (with' fun _ _ => .raise (.user 7)) 0 0 call _ (.user 7) rfl rfl rfl rfl
    (fun _ _ _ => by simp)]

/-- C44: the same exception with `ExceptionToSoapFault`, inside a middleware that passes it on. -/
example : ∃ resp, outcome (dispatch
    (with' (fun _ _ => .raise (.user 7)) [exceptionToSoapFault world false, passThrough]) 0 0) call = .ok resp ∧
    resp.status = 500 := by
  obtain ⟨resp, h1, h2, _⟩ := C44_answer
    (with' (fun _ _ => .raise (.user 7)) [exceptionToSoapFault world false, passThrough]) 0 0 call _ _ _ false
    [passThrough] (.user 7) rfl rfl rfl rfl (by decide) rfl (fun _ _ _ => by simp) rfl rfl rfl (by unfold XmlOk; decide)
  exact ⟨resp, h1, h2⟩

/-- C44: a logger for one class of exceptions. -/
example : ∃ logs, chain (with' fun _ _ => .raise (.user 7)) [exceptionLogger (· = .user 7)] 0 (call.begin 0 0 (request py"POST" [1])) =
    (.error (.user 7), { (callMethod (with' fun _ _ => .raise (.user 7)) 0 (call.begin 0 0 (request py"POST" [1]))).2 with
      trace := logs ++ [.log (.user 7)] }) := ⟨_, rfl⟩

/-- C41: two middlewares around the method. -/
example : (happened (chain world [bracket (.user 1) (.user 2), bracket (.user 3) (.user 4)] 0)
    (call.begin 0 0 (request py"POST" [1]))).map (fun | .log e => some e | _ => none) =
    [some (.user 1), some (.user 3), none, some (.user 4), some (.user 2)] := by rfl

/-- C41: a middleware that answers without calling the next one. -/
example : ∀ r s, ∀ e ∈ happened (chain world [passThrough, fun _ => .ret (.obj (.val Val.none)), passThrough] r) s, e.IsLog :=
  (C41_stop world [passThrough] [passThrough] [] (fun _ => .ret (.obj (.val Val.none))) fun _ => .ret _).2

/-- C46: a request hook that returns something else, and a response hook that replaces the response. -/
example : outcome (dispatch (with' (fun _ _ => .raise (.user 7)) [] [(py"soap-request", fun _ _ => .ret .other)]) 0 0) call =
    .error .typeError := by rfl
example : (outcome (dispatch (with' (fun _ _ => .ret (.obj (.val answer))) []
    [(py"soap-response", fun _ _ => .ret (.response { badRequest with status := 418 }))]) 0 0) call).map (·.status) =
    .ok 418 := by rfl

/-- C46: names. -/
example : checkHooks [py"soap-request", py"wsdl-responses"] = .ok () := by decide +kernel
example : checkHooks [py"soap-request", py"html-request"] = .error .keyError := by decide +kernel

end ExS

end Soapfish
