import Verif.SoapLemmas
import Verif.Props.RoundTrip
/-
Lemmas about messages: what is written for an object and a header, and what is read.
-/
namespace Soapfish

/-! ### Writing -/

theorem construct_named (v : Version) (U : Table) (k : Nat) (tag : Str) (c : ClsId) (fs : List (Str × Val)) (x : Option Xml) :
    construct (soapTable v U) (k + 4) cNamed [(py"name", .atom (.str tag)), (py"value", .inst c fs x)] =
      if isSub (soapTable v U) c cComplex then
        .ok (.inst cNamed [(py"name", .atom (.str tag)), (py"value", .inst c fs x)] none)
      else .error .valueError := by
  have h : construct (soapTable v U) (k + 4) cNamed [(py"name", .atom (.str tag)), (py"value", .inst c fs x)] =
    ((acceptCls (soapTable v U) cComplex (.inst c fs x)).bind fun w =>
      .ok (.inst cNamed [(py"name", .atom (.str tag)), (py"value", w)] none)).bind fun v => .ok v := by
    cases v <;> rfl
  rw [h]
  have h2 : acceptCls (soapTable v U) cComplex (.inst c fs x) =
    if isSub (soapTable v U) c cComplex then .ok (.inst c fs x) else .error .valueError := by cases v <;> rfl
  rw [h2]
  split <;> rfl

theorem responseXml_inst (v : Version) (U : Table) (k : Nat) (tag : Str) (c : ClsId) (fs : List (Str × Val)) (x : Option Xml)
    (header : Val) :
    responseXml v (soapTable v U) (k + 4) tag (.inst c fs x) header =
      if isSub (soapTable v U) c cComplex then
        envelopeXml v (soapTable v U) (k + 4) header (.inst cBody [(py"message",
          .inst cNamed [(py"name", .atom (.str tag)), (py"value", .inst c fs x)] none), (py"Fault", Val.none)] none)
      else .error .valueError := by
  unfold responseXml
  rw [construct_named]
  split
  · cases v <;> rfl
  · rfl

theorem renderBody_named (v : Version) (U : Table) (k : Nat) (tag : Str) (c : ClsId) (fs : List (Str × Val)) (x : Option Xml)
    (ns : Option Str) (q : Bool) :
    renderCls (soapTable v U) (k + 3) cBody (.inst cBody [(py"message",
          .inst cNamed [(py"name", .atom (.str tag)), (py"value", .inst c fs x)] none), (py"Fault", Val.none)] none) ns q =
      match (soapTable v U c).schema with
      | some s => do
        let o ← renderFields (soapTable v U) (renderCls (soapTable v U) (k + 1)) fs s.targetNamespace s.qualified
          (soapTable v U c).fields
        .ok { kids := [mkElem (QName.mk' s.targetNamespace tag) o none] }
      | none => .error .attributeError := by
  have h : renderCls (soapTable v U) (k + 3) cBody (.inst cBody [(py"message",
          .inst cNamed [(py"name", .atom (.str tag)), (py"value", .inst c fs x)] none), (py"Fault", Val.none)] none) ns q =
      (do
        let o ← (match (soapTable v U c).schema, FType.complex cNamed with
        | some s, .complex c' => do
          let loc ← namedLoc (.atom (.str tag)) s.targetNamespace
          let o ← renderCls (soapTable v U) (k + 2) c' (.inst c fs x) s.targetNamespace s.qualified
          .ok { kids := [mkElem (QName.mk' s.targetNamespace loc) o none] }
        | _, _ => .error .attributeError : Except Exn Out)
        let os ← Except.ok (ε := Exn) (Out.append {} {})
        .ok (o.append os)) := by
    cases v <;> rfl
  rw [h]
  cases hs : (soapTable v U c).schema with
  | none => rfl
  | some s =>
    have h3 : renderCls (soapTable v U) (k + 2) cNamed (.inst c fs x) s.targetNamespace s.qualified =
      renderFields (soapTable v U) (renderCls (soapTable v U) (k + 1)) fs s.targetNamespace s.qualified
          (soapTable v U c).fields := by cases v <;> rfl
    simp only [namedLoc, Except_ok_bind, h3]
    cases renderFields (soapTable v U) (renderCls (soapTable v U) (k + 1)) fs s.targetNamespace s.qualified
          (soapTable v U c).fields <;> rfl

theorem envelopeXml_header (v : Version) (U : Table) (k : Nat) (ch : ClsId) (hfs : List (Str × Val)) (hx : Option Xml)
    (hs : (soapTable v U ch).schema ≠ none) (bfs : List (Str × Val)) (x : Option Xml) :
    envelopeXml v (soapTable v U) (k + 4) (.inst ch hfs hx) (.inst cBody bfs x) = (do
      let oh ← renderFields (soapTable v U) (renderCls (soapTable v U) (k + 2)) hfs (some v.envelopeNs) true
        (soapTable v U ch).fields
      let o ← renderCls (soapTable v U) (k + 3) cBody (.inst cBody bfs x) (some v.envelopeNs) true
      .ok (.elem ⟨some v.envelopeNs, py"Envelope"⟩ [] none
        [mkElem ⟨some v.envelopeNs, py"Header"⟩ oh none, mkElem ⟨some v.envelopeNs, py"Body"⟩ o none])) := by
  have h1 : envelopeXml v (soapTable v U) (k + 4) (.inst ch hfs hx) (.inst cBody bfs x) =
      toXml (soapTable v U) (k + 4) (.inst cEnvelope [(py"Header", .inst ch hfs hx), (py"Body", .inst cBody bfs x)] none)
        py"Envelope" (some v.envelopeNs) true := by cases v <;> rfl
  rw [h1]
  have h0 : renderCls (soapTable v U) (k + 3) cHeader (.inst ch hfs hx) (some v.envelopeNs) true =
      renderFields (soapTable v U) (renderCls (soapTable v U) (k + 2)) hfs (some v.envelopeNs) true
        (soapTable v U ch).fields := by
    have : renderCls (soapTable v U) (k + 3) cHeader (.inst ch hfs hx) (some v.envelopeNs) true =
      if true ∧ (soapTable v U ch).schema = none then .error .attributeError else
      renderFields (soapTable v U) (renderCls (soapTable v U) (k + 2)) hfs (some v.envelopeNs) true
        (soapTable v U ch).fields := by cases v <;> rfl
    rw [this, if_neg (fun h => hs h.2)]
  have h2 : renderCls (soapTable v U) (k + 4) cEnvelope
      (.inst cEnvelope [(py"Header", .inst ch hfs hx), (py"Body", .inst cBody bfs x)] none) (some v.envelopeNs) true =
      (do
        let o0 ← (do
          let x ← (do
              let (o, t) ← (do
                let o ← renderCls (soapTable v U) (k + 3) cHeader (.inst ch hfs hx) (some v.envelopeNs) true
                .ok (o, Option.none))
              .ok (mkElem (childTag { name := py"Header", kind := .element, type := .complex cHeader, nillable := true }
                py"Header" (some v.envelopeNs) true) o t))
          Except.ok (ε := Exn) ({ kids := [x] } : Out))
        let os ← (do
          let o1 ← (do
            let x ← (do
              let (o, t) ← (do
                let o ← renderCls (soapTable v U) (k + 3) cBody (.inst cBody bfs x) (some v.envelopeNs) true
                .ok (o, Option.none))
              .ok (mkElem (childTag { name := py"Body", kind := .element, type := .complex cBody }
                py"Body" (some v.envelopeNs) true) o t))
            Except.ok (ε := Exn) ({ kids := [x] } : Out))
          let os ← Except.ok (ε := Exn) ({} : Out)
          Except.ok (ε := Exn) (o1.append os))
        .ok (Out.append o0 os)) := by cases v <;> rfl
  simp only [toXml]
  rw [h2, h0]
  cases renderFields (soapTable v U) (renderCls (soapTable v U) (k + 2)) hfs (some v.envelopeNs) true
        (soapTable v U ch).fields with
  | error e => rfl
  | ok oh =>
  cases renderCls (soapTable v U) (k + 3) cBody (.inst cBody bfs x) (some v.envelopeNs) true with
  | error e => rfl
  | ok o => cases v <;> rfl

/-- What is written for a header. -/
def HdrOf (v : Version) (T : Table) (n : Nat) (header : Val) (hdr : Option Xml) : Prop :=
  (header = Val.none ∧ hdr = none) ∨
  ∃ ch hfs hx oh, header = .inst ch hfs hx ∧
    renderFields T (renderCls T n) hfs (some v.envelopeNs) true (T ch).fields = .ok oh ∧
    hdr = some (mkElem ⟨some v.envelopeNs, py"Header"⟩ oh none)

theorem envelopeXml_schemaless (v : Version) (U : Table) (k : Nat) (ch : ClsId) (hfs : List (Str × Val)) (hx : Option Xml)
    (hs : (soapTable v U ch).schema = none) (bfs : List (Str × Val)) (x : Option Xml) :
    envelopeXml v (soapTable v U) (k + 4) (.inst ch hfs hx) (.inst cBody bfs x) = .error .attributeError := by
  have h1 : envelopeXml v (soapTable v U) (k + 4) (.inst ch hfs hx) (.inst cBody bfs x) =
      toXml (soapTable v U) (k + 4) (.inst cEnvelope [(py"Header", .inst ch hfs hx), (py"Body", .inst cBody bfs x)] none)
        py"Envelope" (some v.envelopeNs) true := by cases v <;> rfl
  rw [h1]
  have h0 : renderCls (soapTable v U) (k + 3) cHeader (.inst ch hfs hx) (some v.envelopeNs) true =
      .error .attributeError := by
    have : renderCls (soapTable v U) (k + 3) cHeader (.inst ch hfs hx) (some v.envelopeNs) true =
      if true ∧ (soapTable v U ch).schema = none then .error .attributeError else
      renderFields (soapTable v U) (renderCls (soapTable v U) (k + 2)) hfs (some v.envelopeNs) true
        (soapTable v U ch).fields := by cases v <;> rfl
    rw [this, if_pos ⟨rfl, hs⟩]
  have h2 : renderField (soapTable v U) (renderCls (soapTable v U) (k + 3))
      { name := py"Header", kind := .element, type := .complex cHeader, nillable := true } (.inst ch hfs hx)
      (some v.envelopeNs) true = .error .attributeError := by
    have : renderField (soapTable v U) (renderCls (soapTable v U) (k + 3))
      { name := py"Header", kind := .element, type := .complex cHeader, nillable := true } (.inst ch hfs hx)
      (some v.envelopeNs) true = (do
          let x ← (do
              let (o, t) ← (do
                let o ← renderCls (soapTable v U) (k + 3) cHeader (.inst ch hfs hx) (some v.envelopeNs) true
                .ok (o, Option.none))
              .ok (mkElem (childTag { name := py"Header", kind := .element, type := .complex cHeader, nillable := true }
                py"Header" (some v.envelopeNs) true) o t))
          Except.ok (ε := Exn) ({ kids := [x] } : Out)) := by cases v <;> rfl
    rw [this, h0]
    rfl
  have h3 : toXml (soapTable v U) (k + 4) (.inst cEnvelope [(py"Header", .inst ch hfs hx), (py"Body", .inst cBody bfs x)] none)
        py"Envelope" (some v.envelopeNs) true = (do
      let o ← (do
        let o ← renderField (soapTable v U) (renderCls (soapTable v U) (k + 3))
          { name := py"Header", kind := .element, type := .complex cHeader, nillable := true } (.inst ch hfs hx)
          (some v.envelopeNs) true
        let os ← renderFields (soapTable v U) (renderCls (soapTable v U) (k + 3))
          [(py"Header", .inst ch hfs hx), (py"Body", .inst cBody bfs x)] (some v.envelopeNs) true
          [{ name := py"Body", kind := .element, type := .complex cBody }]
        .ok (o.append os))
      .ok (mkElem (QName.mk' (some v.envelopeNs) py"Envelope") o none)) := by cases v <;> rfl
  rw [h3, h2]
  rfl

/-- What is written for an object and a header. -/
theorem responseXml_shape {v : Version} {U : Table} {k : Nat} {tag : Str} {c : ClsId} {fs : List (Str × Val)}
    {x : Option Xml} {header : Val} {doc : Xml} (hh : header = Val.none ∨ ∃ ch hfs hx, header = .inst ch hfs hx)
    (h : responseXml v (soapTable v U) (k + 4) tag (.inst c fs x) header = .ok doc) :
    ∃ s o hdr, (soapTable v U c).schema = some s ∧
      renderFields (soapTable v U) (renderCls (soapTable v U) (k + 1)) fs s.targetNamespace s.qualified
          (soapTable v U c).fields = .ok o ∧
      HdrOf v (soapTable v U) (k + 2) header hdr ∧
      doc = .elem ⟨some v.envelopeNs, py"Envelope"⟩ [] none
        (hdr.toList ++ [.elem ⟨some v.envelopeNs, py"Body"⟩ [] none [mkElem (QName.mk' s.targetNamespace tag) o none]]) := by
  rw [responseXml_inst] at h
  split at h
  · rcases hh with rfl | ⟨ch, hfs, hx, rfl⟩
    · rw [envelopeXml_none, renderBody_named] at h
      cases hs : (soapTable v U c).schema with
      | none => rw [hs] at h; cases h
      | some s =>
        rw [hs] at h
        obtain ⟨ob, hob, h⟩ := bind_eq_ok.1 h
        obtain ⟨o, ho, hob⟩ := bind_eq_ok.1 hob
        injection hob with hob; subst hob
        injection h with h; subst h
        exact ⟨s, o, none, rfl, ho, .inl ⟨rfl, rfl⟩, rfl⟩
    · by_cases hsch : (soapTable v U ch).schema = none
      · rw [envelopeXml_schemaless _ _ _ _ _ _ hsch] at h
        cases h
      · rw [envelopeXml_header _ _ _ _ _ _ hsch, renderBody_named] at h
        obtain ⟨oh, hoh, h⟩ := bind_eq_ok.1 h
        cases hs : (soapTable v U c).schema with
        | none => rw [hs] at h; cases h
        | some s =>
          rw [hs] at h
          obtain ⟨ob, hob, h⟩ := bind_eq_ok.1 h
          obtain ⟨o, ho, hob⟩ := bind_eq_ok.1 hob
          injection hob with hob; subst hob
          injection h with h; subst h
          exact ⟨s, o, some _, rfl, ho, .inr ⟨ch, hfs, hx, oh, rfl, hoh, rfl⟩, rfl⟩
  · cases h

/-! ### Reading does not depend on unused depth -/

/-- `pc'` reads everything `pc` reads. -/
def PLe (pc pc' : ParseCls) : Prop := ∀ c x v, pc c x = .ok v → pc' c x = .ok v

section
variable {T : Table} {nw : ClsId → Except Exn Val} {pc pc' : ParseCls} (hle : PLe pc pc')

include hle

theorem parseType_le {t : FType} {x : Xml} {v : Val} (h : parseType pc t x = .ok v) : parseType pc' t x = .ok v := by
  cases t with
  | simple s => exact h
  | complex c => exact hle c x v h
  | any => cases h

theorem parseElement_le {f : Field} {i : Val} {x : Xml} {v : Val} (h : parseElement T nw pc f i x = .ok v) :
    parseElement T nw pc' f i x = .ok v := by
  unfold parseElement at h ⊢
  obtain ⟨u, hu, h⟩ := bind_eq_ok.1 h
  obtain ⟨w, hw, h⟩ := bind_eq_ok.1 h
  refine bind_eq_ok.2 ⟨u, hu, bind_eq_ok.2 ⟨w, ?_, h⟩⟩
  split at hw
  · next hc => rw [if_pos hc]; exact hw
  · next hc => rw [if_neg hc]; exact parseType_le hle hw

theorem parseItem_le {f : Field} {i : Val} {x : Xml} {v : Val} (h : parseItem T nw pc f i x = .ok v) :
    parseItem T nw pc' f i x = .ok v := by
  unfold parseItem at h ⊢
  obtain ⟨u, hu, h⟩ := bind_eq_ok.1 h
  obtain ⟨w, hw, h⟩ := bind_eq_ok.1 h
  refine bind_eq_ok.2 ⟨u, hu, bind_eq_ok.2 ⟨w, ?_, h⟩⟩
  split at hw
  · next hc => rw [if_pos hc]; exact hw
  · next hc => rw [if_neg hc]; exact parseType_le hle hw

theorem parseOne_le {f : Field} {i : Val} {x : Xml} {v : Val} (h : parseOne T nw pc f i x = .ok v) :
    parseOne T nw pc' f i x = .ok v := by
  unfold parseOne at h ⊢
  split at h
  · next hk => rw [if_pos hk]; exact parseItem_le hle h
  · next hk => rw [if_neg hk]; exact parseElement_le hle h

omit hle in
theorem foldE_le {α σ : Type} {f g : σ → α → Except Exn σ} (hfg : ∀ s a t, f s a = .ok t → g s a = .ok t) :
    ∀ (l : List α) s t, foldE f s l = .ok t → foldE g s l = .ok t := by
  intro l
  induction l with
  | nil => intro s t h; exact h
  | cons a l ih =>
    intro s t h
    obtain ⟨s', hs', h⟩ := bind_eq_ok.1 h
    exact bind_eq_ok.2 ⟨s', hfg s a s' hs', ih s' t h⟩

theorem parseSeq_le {f : Field} {i : Val} {x : Xml} {v : Val} (h : parseSeq T nw pc x i f = .ok v) :
    parseSeq T nw pc' x i f = .ok v := by
  unfold parseSeq at h ⊢
  obtain ⟨u, hu, h⟩ := bind_eq_ok.1 h
  exact bind_eq_ok.2 ⟨u, hu, foldE_le (fun _ _ _ => parseOne_le hle) _ _ _ h⟩

theorem parseChoice_le {i : Val} {x : Xml} {v : Val} : ∀ fs : List Field, parseChoice T nw pc x i fs = .ok v →
    parseChoice T nw pc' x i fs = .ok v := by
  intro fs
  induction fs with
  | nil => exact id
  | cons f fs ih =>
    intro h
    cases x with
    | elem q a t k =>
      simp only [parseChoice] at h ⊢
      split at h
      · next hm => rw [if_pos hm]; exact parseOne_le hle h
      · next hm => rw [if_neg hm]; exact ih h
    | comment => exact ih h
    | pi => cases h

end

theorem parseCls_le {T : Table} {N n : Nat} : ∀ m, n ≤ m → PLe (parseCls T N n) (parseCls T N m) := by
  induction n with
  | zero => intro m _ c x v h; cases h
  | succ n ih =>
    intro m hm c x v h
    obtain ⟨m, rfl⟩ : ∃ k, m = k + 1 := ⟨m - 1, by omega⟩
    have hle := ih m (by omega)
    unfold parseCls at h ⊢
    obtain ⟨i, hi, h⟩ := bind_eq_ok.1 h
    obtain ⟨i1, hi1, h⟩ := bind_eq_ok.1 h
    obtain ⟨i2, hi2, h⟩ := bind_eq_ok.1 h
    refine bind_eq_ok.2 ⟨i, hi, bind_eq_ok.2 ⟨i1, hi1, bind_eq_ok.2 ⟨i2, ?_, ?_⟩⟩⟩
    · split at hi2
      · next hc => rw [if_pos hc]; exact parseChoice_le hle _ hi2
      · next hc => rw [if_neg hc]; exact foldE_le (fun _ _ _ => parseSeq_le hle) _ _ _ hi2
    · exact foldE_le (fun _ _ _ => parseElement_le hle) _ _ _ h

/-! ### Reading what was written -/

/-- An object written by its fields into an element is read again from that element. -/
theorem object_back {T : Table} (hT : T.Sane) {N n m : Nat} (hm : n + 1 ≤ m) {c : ClsId} {fs : List (Str × Val)}
    {x : Option Xml} {ns : Option Str} {q : Bool} {o : Out} {tag : QName} {y : Xml}
    (hs : Survives T N (.complex c) (.inst c fs x)) (h : renderFields T (renderCls T n) fs ns q (T c).fields = .ok o)
    (hb : Back (mkElem tag o none) y) :
    y.attr qNil = none ∧ ∃ w, parseCls T N m c y = .ok w ∧ w.Same (.inst c fs x) := by
  have hof := offers_elem (fields_outIn (flat_outIn n) hs h) hb
  obtain ⟨w, hw, hsame⟩ := fields_back hT (inst_back hT N n) hs h hof
  exact ⟨hof.nil, w, parseCls_le m hm c y w hw, hsame⟩

end Soapfish
