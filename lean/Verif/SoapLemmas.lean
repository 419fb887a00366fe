import Verif.Spec.Dispatch
import Verif.DispatchLemmas
/-
Lemmas about building envelopes.
-/
namespace Soapfish

/-- A Fault object. -/
def faultVal (v : Version) (code message : Str) (actor : Option Str) : Val :=
  match v with
  | .soap11 => .inst cFault [(py"faultcode", .atom (.str code)), (py"faultstring", .atom (.str message)),
      (py"faultactor", optStr actor)] none
  | .soap12 => .inst cFault [(py"Code", .inst cCode [(py"Value", .atom (.str code))] none),
      (py"Reason", .inst cReason [(py"Text", .atom (.str message))] none), (py"Role", optStr actor)] none

theorem buildFault_eq (v : Version) (U : Table) (k : Nat) (code message : Str) (actor : Option Str) :
    buildFault v (soapTable v U) (k + 4) code message actor = .ok (faultVal v code message actor) := by
  cases v <;> cases actor <;> rfl

/-- An Envelope object rendered. -/
theorem envelopeXml_none (v : Version) (U : Table) (k : Nat) (bfs : List (Str × Val)) (x : Option Xml) :
    envelopeXml v (soapTable v U) (k + 4) Val.none (.inst cBody bfs x) = (do
      let o ← renderCls (soapTable v U) (k + 3) cBody (.inst cBody bfs x) (some v.envelopeNs) true
      .ok (.elem ⟨some v.envelopeNs, py"Envelope"⟩ [] none [mkElem ⟨some v.envelopeNs, py"Body"⟩ o none])) := by
  have h1 : envelopeXml v (soapTable v U) (k + 4) Val.none (.inst cBody bfs x) =
      toXml (soapTable v U) (k + 4) (.inst cEnvelope [(py"Header", Val.none), (py"Body", .inst cBody bfs x)] none)
        py"Envelope" (some v.envelopeNs) true := by cases v <;> rfl
  rw [h1]
  have h2 : renderCls (soapTable v U) (k + 4) cEnvelope
      (.inst cEnvelope [(py"Header", Val.none), (py"Body", .inst cBody bfs x)] none) (some v.envelopeNs) true =
      (do
        let os ← (do
          let o1 ← (do
            let x ← (do
              let (o, t) ← (do
                let o ← renderCls (soapTable v U) (k + 3) cBody (.inst cBody bfs x) (some v.envelopeNs) true
                .ok (o, Option.none))
              .ok (mkElem ⟨some v.envelopeNs, py"Body"⟩ o t))
            Except.ok (ε := Exn) ({ kids := [x] } : Out))
          let os ← Except.ok (ε := Exn) ({} : Out)
          Except.ok (ε := Exn) (o1.append os))
        .ok (Out.append {} os)) := by cases v <;> rfl
  simp only [toXml]
  rw [h2]
  cases renderCls (soapTable v U) (k + 3) cBody (.inst cBody bfs x) (some v.envelopeNs) true with
  | error e => rfl
  | ok o => cases v <;> rfl

theorem renderChild_text {rc : RenderCls} {f : Field} (hf : f.type = .simple (.string {})) (loc s : Str)
    (ns : Option Str) (q : Bool) :
    renderChild rc f loc (.atom (.str s)) ns q = (xmlText s).map fun t => .elem (childTag f loc ns q) [] (some t) [] := by
  unfold renderChild
  rw [hf]
  have : ∀ s, renderType rc (.simple (.string {})) (.atom (.str s)) (childNs f ns) q =
      (do let txt ← (xmlText s).map some; .ok ({}, txt)) := fun s => rfl
  simp only [Val.isNil, Bool.false_eq_true, if_false, this]
  cases xmlText s <;> rfl

theorem renderChild_lang {rc : RenderCls} {f : Field} (hf : f.type = .simple .lang) (loc s : Str)
    (ns : Option Str) (q : Bool) :
    renderChild rc f loc (.atom (.str s)) ns q =
      (xmlText s).map fun t => .elem (childTag f loc ns q) [(qLang, py"en")] (some t) [] := by
  unfold renderChild
  rw [hf]
  have : ∀ s, renderType rc (.simple .lang) (.atom (.str s)) (childNs f ns) q =
      (do let txt ← (xmlText s).map some; .ok ({ attrs := [(qLang, py"en")] }, txt)) := fun s => rfl
  simp only [Val.isNil, Bool.false_eq_true, if_false, this]
  cases xmlText s <;> rfl

theorem xmlText_of {s : Str} (h : XmlOk s) : xmlText s = .ok s := by
  unfold xmlText
  rw [if_pos (List.all_eq_true.2 h)]

theorem xmlText_not {s : Str} (h : ¬ XmlOk s) : xmlText s = .error .valueError := by
  unfold xmlText
  rw [if_neg (fun e => h (List.all_eq_true.1 e))]

theorem Except_ok_bind {α β} (a : α) (f : α → Except Exn β) : (Except.ok a >>= f) = f a := rfl

section
variable {T : Table} {rc : RenderCls} {vals : List (Str × Val)} {ns : Option Str} {q : Bool} {f : Field} {fs : List Field}
  {o : Out}

theorem renderFields_child {x : Xml} {v : Val} (hk : f.kind = .element) (hv : getAttr vals f.name = .ok v)
    (hn : v.isNone = false) (hx : renderChild rc f f.tag v ns q = .ok x)
    (h : renderFields T rc vals ns q fs = .ok o) :
    renderFields T rc vals ns q (f :: fs) = .ok { attrs := o.attrs, kids := x :: o.kids } := by
  simp only [renderFields, hv, Except_ok_bind, renderField, hk, hn, Bool.false_eq_true, if_false, hx, h]
  rfl

theorem renderFields_none (hk : f.kind = .element) (hv : getAttr vals f.name = .ok Val.none)
    (h : renderFields T rc vals ns q fs = .ok o) : renderFields T rc vals ns q (f :: fs) = .ok o := by
  simp only [renderFields, hv, Except_ok_bind, renderField, hk, h]
  rfl

theorem renderChild_cls {c : ClsId} {v : Val} {loc : Str} (hf : f.type = .complex c) (hv : v.isNil = false)
    (h : rc c v (childNs f ns) q = .ok o) :
    renderChild rc f loc v ns q = .ok (mkElem (childTag f loc ns q) o none) := by
  unfold renderChild
  simp only [hv, Bool.false_eq_true, if_false, hf, renderType, h, Except_ok_bind]

end

theorem renderChild_text_ok {rc : RenderCls} {f : Field} (hf : f.type = .simple (.string {})) {loc s : Str}
    {ns : Option Str} {q : Bool} (h : xmlText s = .ok s) :
    renderChild rc f loc (.atom (.str s)) ns q = .ok (.elem (childTag f loc ns q) [] (some s) []) := by
  rw [renderChild_text hf, h]; rfl

theorem renderChild_lang_ok {rc : RenderCls} {f : Field} (hf : f.type = .simple .lang) {loc s : Str}
    {ns : Option Str} {q : Bool} (h : xmlText s = .ok s) :
    renderChild rc f loc (.atom (.str s)) ns q = .ok (.elem (childTag f loc ns q) [(qLang, py"en")] (some s) []) := by
  rw [renderChild_lang hf, h]; rfl

/-- Fault envelopes without header. -/
theorem errorXml_ok (v : Version) (U : Table) (k : Nat) {code message : Str} {actor : Option Str} (hc : XmlOk code)
    (hm : XmlOk message) (ha : ∀ a, actor = some a → XmlOk a) :
    errorXml v (soapTable v U) (k + 4) code message actor Val.none = .ok (faultDoc v code message actor) := by
  have h1 : errorXml v (soapTable v U) (k + 4) code message actor Val.none =
      envelopeXml v (soapTable v U) (k + 4) Val.none
        (.inst cBody [(py"message", Val.none), (py"Fault", faultVal v code message actor)] none) := by
    unfold errorXml
    rw [buildFault_eq]
    cases v <;> cases actor <;> rfl
  rw [h1, envelopeXml_none]
  have h2 : ∀ x : Xml, renderChild (renderCls (soapTable v U) (k + 2))
        { name := py"Fault", kind := .element, type := .complex cFault, required := false } py"Fault"
        (faultVal v code message actor) (some v.envelopeNs) true = .ok x →
      renderCls (soapTable v U) (k + 3) cBody
      (.inst cBody [(py"message", Val.none), (py"Fault", faultVal v code message actor)] none)
      (some v.envelopeNs) true = .ok { kids := [x] } := by
    intro x hx
    have : renderCls (soapTable v U) (k + 3) cBody
      (.inst cBody [(py"message", Val.none), (py"Fault", faultVal v code message actor)] none)
      (some v.envelopeNs) true = (do
        let os ← (do
          let o ← (do
            let k ← renderChild (renderCls (soapTable v U) (k + 2))
              { name := py"Fault", kind := .element, type := .complex cFault, required := false } py"Fault"
              (faultVal v code message actor) (some v.envelopeNs) true
            Except.ok (ε := Exn) ({ kids := [k] } : Out))
          let os ← Except.ok (ε := Exn) ({} : Out)
          Except.ok (ε := Exn) (o.append os))
        Except.ok (ε := Exn) (Out.append {} os)) := by cases v <;> rfl
    rw [this, hx]
    rfl
  have hc := xmlText_of hc
  have hm := xmlText_of hm
  cases v with
  | soap11 =>
    have hf : renderCls (soapTable .soap11 U) (k + 2) cFault (faultVal .soap11 code message actor)
        (some Version.soap11.envelopeNs) true = .ok ⟨[],
          [textElem none py"faultcode" code, textElem none py"faultstring" message] ++
            actor.toList.map (textElem none py"faultactor")⟩ := by
      show renderFields (soapTable .soap11 U) (renderCls (soapTable .soap11 U) (k + 1))
            [(py"faultcode", .atom (.str code)), (py"faultstring", .atom (.str message)), (py"faultactor", optStr actor)]
            (some Version.soap11.envelopeNs) true Version.soap11.faultFields = _
      refine renderFields_child (o := ⟨[], textElem none py"faultstring" message ::
        actor.toList.map (textElem none py"faultactor")⟩) rfl rfl rfl (renderChild_text_ok rfl hc) ?_
      refine renderFields_child (o := ⟨[], actor.toList.map (textElem none py"faultactor")⟩) rfl rfl rfl
        (renderChild_text_ok rfl hm) ?_
      cases actor with
      | none => exact renderFields_none rfl rfl rfl
      | some a => exact renderFields_child (o := {}) rfl rfl rfl (renderChild_text_ok rfl (xmlText_of (ha a rfl))) rfl
    rw [h2 _ (renderChild_cls rfl rfl hf)]
    cases actor <;> rfl
  | soap12 =>
    have hcode : renderCls (soapTable .soap12 U) (k + 1) cCode (.inst cCode [(py"Value", .atom (.str code))] none)
        (some Version.soap12.envelopeNs) true =
          .ok { kids := [textElem (some Version.soap12.envelopeNs) py"Value" code] } := by
      show renderFields (soapTable .soap12 U) (renderCls (soapTable .soap12 U) k) [(py"Value", .atom (.str code))]
        (some Version.soap12.envelopeNs) true _ = _
      exact renderFields_child (o := {}) rfl rfl rfl (renderChild_text_ok rfl hc) rfl
    have hreason : renderCls (soapTable .soap12 U) (k + 1) cReason (.inst cReason [(py"Text", .atom (.str message))] none)
        (some Version.soap12.envelopeNs) true =
          .ok { kids := [.elem ⟨some Version.soap12.envelopeNs, py"Text"⟩ [(qLang, py"en")] (some message) []] } := by
      show renderFields (soapTable .soap12 U) (renderCls (soapTable .soap12 U) k) [(py"Text", .atom (.str message))]
        (some Version.soap12.envelopeNs) true _ = _
      exact renderFields_child (o := {}) rfl rfl rfl (renderChild_lang_ok rfl hm) rfl
    have hf : renderCls (soapTable .soap12 U) (k + 2) cFault (faultVal .soap12 code message actor)
        (some Version.soap12.envelopeNs) true = .ok ⟨[],
          [.elem ⟨some Version.soap12.envelopeNs, py"Code"⟩ [] none
            [textElem (some Version.soap12.envelopeNs) py"Value" code],
           .elem ⟨some Version.soap12.envelopeNs, py"Reason"⟩ [] none
            [.elem ⟨some Version.soap12.envelopeNs, py"Text"⟩ [(qLang, py"en")] (some message) []]] ++
            actor.toList.map (textElem (some Version.soap12.envelopeNs) py"Role")⟩ := by
      show renderFields (soapTable .soap12 U) (renderCls (soapTable .soap12 U) (k + 1))
            [(py"Code", .inst cCode [(py"Value", .atom (.str code))] none),
             (py"Reason", .inst cReason [(py"Text", .atom (.str message))] none), (py"Role", optStr actor)]
            (some Version.soap12.envelopeNs) true Version.soap12.faultFields = _
      refine renderFields_child (o := ⟨[], .elem ⟨some Version.soap12.envelopeNs, py"Reason"⟩ [] none
            [.elem ⟨some Version.soap12.envelopeNs, py"Text"⟩ [(qLang, py"en")] (some message) []] ::
        actor.toList.map (textElem (some Version.soap12.envelopeNs) py"Role")⟩) rfl rfl rfl
        ((renderChild_cls (c := cCode) rfl rfl hcode).trans rfl) ?_
      refine renderFields_child (o := ⟨[], actor.toList.map (textElem (some Version.soap12.envelopeNs) py"Role")⟩)
        rfl rfl rfl ((renderChild_cls (c := cReason) rfl rfl hreason).trans rfl) ?_
      cases actor with
      | none => exact renderFields_none rfl rfl rfl
      | some a => exact renderFields_child (o := {}) rfl rfl rfl (renderChild_text_ok rfl (xmlText_of (ha a rfl))) rfl
    rw [h2 _ (renderChild_cls rfl rfl hf)]
    cases actor <;> rfl

/-! ### Reading ordinary messages -/

theorem parse_body {v : Version} {U : Table} {k n : Nat} {q : QName} {a : List (QName × Str)} {t : Option Str} {x : Xml}
    {l : Str} (hx : x.Named l) (h1 : l ≠ py"message") (h2 : l ≠ py"Fault") :
    parseCls (soapTable v U) (k + 4) (n + 1) cBody (.elem q a t [x]) =
      .ok (.inst cBody [(py"message", Val.none), (py"Fault", Val.none)] (some (.elem q a t [x]))) := by
  obtain ⟨qx, ax, tx, kx, rfl, rfl⟩ := hx
  refine (parseCls_ok_iff (soap_names v U 3 (by decide)) (soap_choice v U 3 (by decide))).2
    ⟨[(py"message", Val.none), (py"Fault", Val.none)], _, by cases v <;> rfl, rfl, rfl, ?_⟩
  intro f hf
  have hf : f = { name := py"message", kind := .classNamed, type := .complex cNamed, required := false } ∨
      f = { name := py"Fault", kind := .element, type := .complex cFault, required := false } := by
    simpa [soapTable] using hf
  rcases hf with rfl | rfl
  · refine ⟨Val.none, Val.none, rfl, ?_, rfl⟩
    simp [fieldVal, Xml.kids, findSub, Field.matchesTag, h1, foldE, bind, Except.bind]
  · refine ⟨Val.none, Val.none, rfl, ?_, rfl⟩
    simp [fieldVal, Xml.kids, findSub, Field.matchesTag, h2, foldE, bind, Except.bind]

theorem parse_header {v : Version} {U : Table} {k n : Nat} (x : Xml) :
    parseCls (soapTable v U) (k + 4) (n + 1) cHeader x = .ok (.inst cHeader [] (some x)) := by
  refine (parseCls_ok_iff (soap_names v U 2 (by decide)) (soap_choice v U 2 (by decide))).2
    ⟨[], _, by cases v <;> rfl, rfl, rfl, ?_⟩
  intro f hf
  simp [soapTable] at hf

/-- The header object of a message. -/
def headerVal : Option Xml → Val
  | some h => .inst cHeader [] (some h)
  | none => Val.none

theorem parse_plain {v : Version} {U : Table} {k : Nat} {doc : Xml} {hdr : Option Xml} {x : Xml}
    (h : PlainMessage doc hdr x) : ∃ body : Xml, body.kids = [x] ∧
    parseEnvelope (soapTable v U) (k + 4) doc = .ok (.inst cEnvelope [(py"Header", headerVal hdr),
      (py"Body", .inst cBody [(py"message", Val.none), (py"Fault", Val.none)] (some body))] (some doc)) := by
  obtain ⟨q, a, t, qb, ab, tb, n, rfl, hb, hnil, hx, h1, h2, hh⟩ := h
  refine ⟨.elem qb ab tb [x], rfl, ?_⟩
  unfold parseEnvelope
  refine (parseCls_ok_iff (soap_names v U 5 (by decide)) (soap_choice v U 5 (by decide))).2
    ⟨[(py"Header", Val.none), (py"Body", Val.none)], _, by cases v <;> rfl, rfl, rfl, ?_⟩
  intro f hf
  have hf : f = { name := py"Header", kind := .element, type := .complex cHeader, nillable := true } ∨
      f = { name := py"Body", kind := .element, type := .complex cBody } := by
    simpa [soapTable] using hf
  rcases hf with rfl | rfl
  · refine ⟨Val.none, headerVal hdr, rfl, ?_, rfl⟩
    cases hdr with
    | none =>
      have : findSub { name := py"Header", kind := .element, type := .complex cHeader, nillable := true }
          [.elem qb ab tb [x]] = .ok [] := by
        simp [findSub, Field.matchesTag, hb, bind, Except.bind]
      simp only [fieldVal, Xml.kids, Option.toList, List.nil_append, this]
      rfl
    | some h =>
      obtain ⟨qh, ah, th, kh, rfl, hl, hn⟩ := hh h rfl
      have : findSub { name := py"Header", kind := .element, type := .complex cHeader, nillable := true }
          [.elem qh ah th kh, .elem qb ab tb [x]] = .ok [.elem qh ah th kh] := by
        simp [findSub, Field.matchesTag, hb, hl, bind, Except.bind]
      simp only [fieldVal, Xml.kids, Option.toList, List.cons_append, List.nil_append, this, Except_ok_bind, foldE, oneVal,
        elemVal, Xml.attr, if_neg hn, parseType, parse_header (n := k + 2)]
      cases v <;> rfl
  · refine ⟨Val.none, _, rfl, ?_, rfl⟩
    have : findSub { name := py"Body", kind := .element, type := .complex cBody }
          (hdr.toList ++ [.elem qb ab tb [x]]) = .ok [.elem qb ab tb [x]] := by
      cases hdr with
      | none => simp [findSub, Field.matchesTag, hb, bind, Except.bind]
      | some h =>
        obtain ⟨qh, ah, th, kh, rfl, hl, hn⟩ := hh h rfl
        simp [findSub, Field.matchesTag, hb, hl, bind, Except.bind]
    simp only [fieldVal, Xml.kids, this, Except_ok_bind, foldE, oneVal,
        elemVal, Xml.attr, if_neg hnil, parseType, parse_body (n := k + 2) hx h1 h2]
    cases v <;> rfl

end Soapfish
