import Verif.RunPlain
import Verif.DescribedLemmas
import Verif.Spec.References
/-
Lemmas on references in generated code.
-/
namespace Soapfish

section
variable {prefixes : List (Option Str)} {digest : Str → Str} {n limit : Nat} {parent : Option Str} {d : DSchema}
  {m : PyModule} {vars : SchemaVars} {env : PyEnv} {s : GSchema} {compile : Str → Pattern} {iso : Iso}

theorem capitalizeO_inv {o : Option Str} {c : Str} (h : capitalizeO o = .ok c) : ∃ n, o = some n ∧ c = capName n := by
  cases o with
  | none => cases h
  | some n => exact ⟨n, rfl, capitalizeO_some h⟩

theorem complexBody_name {known : List Str} {name : Str} {base : PyRef} {c : DContent} {cls : PyClassDef}
    (h : complexBody prefixes known name base c = .ok cls) : cls.name = name := (complexBody_eq h).1

theorem complexClass_name {known : List Str} {o : Option Str} {ct : DComplex} {c : PyClassDef}
    (h : complexClass prefixes known o ct = .ok c) : ∃ n, (o = some n ∨ ct.name = some n) ∧ c.name = capName n := by
  unfold complexClass at h
  split at h
  · obtain ⟨N, h1, h2⟩ := bind_eq_ok.1 h
    obtain ⟨n, rfl, rfl⟩ := capitalizeO_inv h1
    exact ⟨n, .inl rfl, complexBody_name h2⟩
  · split at h
    all_goals
      obtain ⟨N, h1, h2⟩ := bind_eq_ok.1 h
      obtain ⟨b, _, h3⟩ := bind_eq_ok.1 h2
      obtain ⟨n, hn, rfl⟩ := capitalizeO_inv h1
      exact ⟨n, .inr hn, complexBody_name h3⟩

theorem collect_right {α : Type} {f : List Str → α → Except Exn (List PyClassDef × List Str)} {l : List α} :
    ∀ {known : List Str} {r : List PyClassDef × List Str}, collect f known l = .ok r → ∀ c ∈ r.1,
    ∃ k a cs k', a ∈ l ∧ f k a = .ok (cs, k') ∧ c ∈ cs := by
  induction l with
  | nil => intro known r h c hc; rw [← Except.ok.inj h] at hc; cases hc
  | cons x l ih =>
    intro known r h c hc
    unfold collect at h
    obtain ⟨a, h1, h2⟩ := bind_eq_ok.1 h
    obtain ⟨b, h3, h4⟩ := bind_eq_ok.1 h2
    rw [← Except.ok.inj h4] at hc
    rcases List.mem_append.1 hc with hc | hc
    · exact ⟨_, x, a.1, a.2, List.mem_cons_self, h1, hc⟩
    · obtain ⟨k, y, cs, k', hy, h5, h6⟩ := ih h3 c hc
      exact ⟨k, y, cs, k', List.mem_cons_of_mem _ hy, h5, h6⟩

theorem simpleClasses_name {known : List Str} {st : DSimple} {r : List PyClassDef × List Str}
    (h : simpleClasses prefixes known st = .ok r) {c : PyClassDef} (hc : c ∈ r.1) :
    (st.restriction.isSome ∨ st.list = true) ∧ ∃ n, st.name = some n ∧ c.name = capName n := by
  unfold simpleClasses at h
  obtain ⟨a, h1, h2⟩ := bind_eq_ok.1 h
  obtain ⟨b, h3, h4⟩ := bind_eq_ok.1 h2
  obtain ⟨N, h5, h6⟩ := bind_eq_ok.1 h4
  rw [← Except.ok.inj h6] at hc
  rcases List.mem_append.1 hc with hc | hc
  · split at h1
    · rename_i r hr
      obtain ⟨x, h7, h8⟩ := bind_eq_ok.1 h1
      rw [← Except.ok.inj h8] at hc
      rw [List.mem_singleton.1 hc]
      unfold restrictionClass at h7
      obtain ⟨y, h9, h10⟩ := bind_eq_ok.1 h7
      obtain ⟨z, _, h11⟩ := bind_eq_ok.1 h10
      obtain ⟨n, hn, rfl⟩ := capitalizeO_inv h9
      exact ⟨.inl (by rw [hr]; rfl), n, hn, by rw [← Except.ok.inj h11]⟩
    · rw [← Except.ok.inj h1] at hc; cases hc
  · split at h3
    · rename_i hl
      obtain ⟨x, h7, h8⟩ := bind_eq_ok.1 h3
      rw [← Except.ok.inj h8] at hc
      rw [List.mem_singleton.1 hc]
      unfold listClass at h7
      obtain ⟨y, h9, h10⟩ := bind_eq_ok.1 h7
      obtain ⟨n, hn, rfl⟩ := capitalizeO_inv h9
      exact ⟨.inr hl, n, hn, by rw [← Except.ok.inj h10]⟩
    · rw [← Except.ok.inj h3] at hc; cases hc

/-- The parts generated code is made of. -/
theorem schemaToPy_parts (h : schemaToPy prefixes digest n parent d = .ok m) :
    ∃ cts r ag gs cs ts, reorderComplex n d.complexTypes = .ok cts ∧
      collect (simpleClasses prefixes) [] d.simpleTypes = .ok r ∧
      mapE (attributeGroupClass prefixes r.2) d.attributeGroups = .ok ag ∧ mapE (groupClass prefixes r.2) d.groups = .ok gs ∧
      collect (complexClasses prefixes) r.2 cts = .ok cs ∧ mapE (topClasses prefixes cs.2) d.elements = .ok ts ∧
      m.classes = r.1 ++ ag ++ gs ++ cs.1 ++ ts.flatten := by
  unfold schemaToPy at h
  obtain ⟨cts, h1, h⟩ := bind_eq_ok.1 h
  obtain ⟨x, hx, h⟩ := bind_eq_ok.1 h
  unfold schemaCode at hx
  obtain ⟨r, h2, hx⟩ := bind_eq_ok.1 hx
  obtain ⟨ag, h3, hx⟩ := bind_eq_ok.1 hx
  obtain ⟨gs, h4, hx⟩ := bind_eq_ok.1 hx
  obtain ⟨cs, h5, hx⟩ := bind_eq_ok.1 hx
  obtain ⟨ts, h6, hx⟩ := bind_eq_ok.1 hx
  obtain ⟨st, _, hx⟩ := bind_eq_ok.1 hx
  refine ⟨cts, r, ag, gs, cs, ts, h1, h2, h3, h4, h5, h6, ?_⟩
  rw [← Except.ok.inj h, ← Except.ok.inj hx]

/-- Classes come from definitions of the document. -/
theorem class_given (h : schemaToPy prefixes digest n parent d = .ok m) {c : PyClassDef} (hc : c ∈ m.classes) :
    GivesClass d c.name := by
  obtain ⟨cts, r, ag, gs, cs, ts, h1, h2, h3, h4, h5, h6, h7⟩ := schemaToPy_parts h
  rw [h7] at hc
  simp only [List.mem_append] at hc
  rcases hc with (((hc | hc) | hc) | hc) | hc
  · obtain ⟨k, st, l, k', hst, h8, h9⟩ := collect_right h2 c hc
    obtain ⟨h10, n', h11, h12⟩ := simpleClasses_name h8 h9
    exact .simple hst h10 h11 h12.symm
  · obtain ⟨g, hg, h8⟩ := (mapE_all2 h3).mem_right hc
    unfold attributeGroupClass at h8
    obtain ⟨N, h9, h8⟩ := bind_eq_ok.1 h8
    obtain ⟨_, _, h8⟩ := bind_eq_ok.1 h8
    obtain ⟨n', hn, rfl⟩ := capitalizeO_inv h9
    exact .attributeGroup hg hn (by rw [← Except.ok.inj h8])
  · obtain ⟨g, hg, h8⟩ := (mapE_all2 h4).mem_right hc
    unfold groupClass at h8
    obtain ⟨N, h9, h8⟩ := bind_eq_ok.1 h8
    obtain ⟨_, _, h8⟩ := bind_eq_ok.1 h8
    obtain ⟨n', hn, rfl⟩ := capitalizeO_inv h9
    exact .group hg hn (by rw [← Except.ok.inj h8])
  · obtain ⟨k, ct, l, k', hct, h8, h9⟩ := collect_right h5 c hc
    unfold complexClasses at h8
    obtain ⟨c', h10, h8⟩ := bind_eq_ok.1 h8
    obtain ⟨N, h11, h8⟩ := bind_eq_ok.1 h8
    have hl := (Prod.mk.inj (Except.ok.inj h8)).1
    rw [← hl] at h9
    rw [List.mem_singleton.1 h9]
    obtain ⟨n', hn, h12⟩ := complexClass_name h10
    exact .complex ((reorderComplex_mem h1 ct).2 hct) (hn.elim id id) h12.symm
  · obtain ⟨l, hl, hcl⟩ := List.mem_flatten.1 hc
    obtain ⟨e, he, h8⟩ := (mapE_all2 h6).mem_right hl
    unfold topClasses at h8
    split at h8
    · rename_i ct hct
      obtain ⟨c', h9, h8⟩ := bind_eq_ok.1 h8
      rw [← Except.ok.inj h8] at hcl
      rw [List.mem_singleton.1 hcl]
      obtain ⟨n', hn, h12⟩ := complexClass_name h9
      exact .element he hct hn h12.symm
    · rw [← Except.ok.inj h8] at hcl; cases hcl

/-- The class for a complex type that is not derived. -/
structure PlainClass (prefixes : List (Option Str)) (c : DContent) (N : Str) (env : PyEnv) (known : List Str)
    (e : PyEnv) (os : List (Str × FieldObj)) (as gs : List PyField) (es : List (List PyField)) : Prop where
  attrs : All2 (fun a f => attributeField prefixes known a = .ok f) c.attributes as
  groups : All2 (fun g f => attributeGroupRef prefixes known g = .ok f) c.attributeGroups gs
  elems : All2 (fun e f => elementFields prefixes known e = .ok f) c.elements es
  get : ∃ i, env.get N = some (.complex { name := N, indicator := i, fields := os, bases := [N], group := false })
  exec : All2 (fun f p => p.1 = f.target ∧ ∃ bound, py"xsd" ∉ bound ∧ execField e bound f = .ok p.2) (as ++ gs ++ es.flatten) os
  mono : ∀ n x, e.get n = some x → env.get n = some x
  idents : ∀ pf ∈ as ++ gs ++ es.flatten, isIdent pf.target = true
  evaluated : ∀ p ∈ os, evaluateUse env limit (FieldObj.type p.2) = .ok ()

theorem plain_class (hm : schemaToPy prefixes digest n parent d = .ok m) (he : Imported m limit env s)
    (hd : (m.classes.map (·.name)).Nodup) (ho : m.OneEach) {ct : DComplex} (hct : ct ∈ d.complexTypes)
    (hc : ct.complexContent = none) {N : Str} (hn : ct.name = some N) :
    ∃ known e os as gs es, PlainClass (limit := limit) prefixes ct.content (capName N) env known e os as gs es := by
  obtain ⟨known, cls, N', h1, h2, h3, h4⟩ := schemaToPy_complex hm hct
  rw [hn] at h1 h3
  rw [capitalizeO_some h3] at h4
  obtain ⟨b1, b2, -, -, -, -, as, gs, es, b5, b6, b7, b8⟩ := complexBody_eq (complexClass_plain hc h1)
  rw [contentElements_elements] at b7
  obtain ⟨e, o, e1, e2, e3⟩ := execClasses_mem he.classes hd (fun _ _ => rfl) cls h2
  have hb : baseClass e cls.base = .ok (.complex { name := py"ComplexType" }) := by rw [b2]; rfl
  obtain ⟨os, e4, e5⟩ := execClass_on hb (ho cls h2).1 (ho cls h2).2 e1
  have ho' := (Prod.mk.inj (List.cons.inj e4).1).2
  subst ho'
  rw [b1] at e2
  refine ⟨known, e, os, as, gs, es, b5, b6, b7, ⟨_, e2⟩, b8 ▸ e5, e3, fun pf hpf => checked_field he.check h2 (b8 ▸ hpf), ?_⟩
  have hf := he.forced _ h4
  unfold forceClass at hf
  rw [e2] at hf
  exact forX_mem hf

/-- A reference that was evaluated means a class. -/
theorem evaluated_ref {known : List Str} {src : TypeSource} {q l : Str} {p : Option Str} {r : PyRef} {e : PyEnv}
    {bound : List Str} {u : TypeUse} (hs : src.qname = .ok q) (hq : Qualified q p l) (hp : p ∉ prefixes)
    (hr : pyRef prefixes known src = .ok r) (hu : typeUse e bound r = .ok u)
    (mono : ∀ n x, e.get n = some x → env.get n = some x) (hev : evaluateUse env limit u = .ok ()) :
    ∃ o, env.get (capName l) = some o ∧ u.target env = .ok o.use := by
  have h := pyRef_qualified hs hq hr
  rw [if_neg hp] at h
  split at h
  · subst h
    unfold typeUse at hu
    simp only at hu
    split at hu
    · rw [← Except.ok.inj hu] at hev
      cases hev
    · split at hu
      · rename_i o ho
        refine ⟨o, mono _ _ ho, ?_⟩
        rw [← Except.ok.inj hu]
        cases o <;> rfl
      · cases hu
  · subst h
    rw [← Except.ok.inj hu] at hev ⊢
    unfold evaluateUse at hev
    obtain ⟨t, h1, _⟩ := bind_eq_ok.1 hev
    unfold TypeUse.target at h1 ⊢
    cases hg : env.get (capName l) with
    | none => simp only [hg] at h1; cases h1
    | some o => exact ⟨o, rfl, by simp only [hg]⟩

/-- The type of a descriptor. -/
theorem execField_type {e : PyEnv} {bound : List Str} {f : PyField} {o : FieldObj} (h : execField e bound f = .ok o)
    {r : PyRef} (hf : (∃ a b c, f = .attribute a r b c) ∨ (∃ a, f = .ref a r) ∨ (∃ a b c d, f = .element a r b c d) ∨
      ∃ a b c d g, f = .list a r b c d g) : typeUse e bound r = .ok (FieldObj.type o) := by
  unfold execField at h
  split at h
  · cases h
  rcases hf with ⟨a, b, c, rfl⟩ | ⟨a, rfl⟩ | ⟨a, b, c, d, rfl⟩ | ⟨a, b, c, d, g, rfl⟩
  · simp only at h
    obtain ⟨u, h1, h⟩ := bindI h
    obtain ⟨t, _, h⟩ := bindI h
    rw [← Except.ok.inj h]; exact h1
  · simp only at h
    obtain ⟨u, h1, h⟩ := bindI h
    rw [← Except.ok.inj h]; exact h1
  · simp only at h
    obtain ⟨u, h1, h⟩ := bindI h
    obtain ⟨t, _, h⟩ := bindI h
    split at h
    · rw [← Except.ok.inj h]; exact h1
    · cases h
  · simp only at h
    obtain ⟨u, h1, h⟩ := bindI h
    obtain ⟨t, _, h⟩ := bindI h
    rw [← Except.ok.inj h]; exact h1

theorem nonEmpty_of {q : Str} {o : Option Str} (h : o = some q) (hq : q ≠ []) : nonEmpty o = some q := by
  subst h
  cases q with
  | nil => exact absurd rfl hq
  | cons => rfl

theorem item_ref {q : Str} {t : Option Str} {b : Bool} (hq : q ≠ []) : (TypeSource.item (some q) t b).qname = .ok q := by
  cases q with
  | nil => exact absurd rfl hq
  | cons => rfl

theorem item_type {q : Str} {b : Bool} (hq : q ≠ []) : (TypeSource.item none (some q) b).qname = .ok q := by
  cases q with
  | nil => exact absurd rfl hq
  | cons => rfl

theorem lastPart_local {q l : Str} {p : Option Str} (h : Qualified q p l) : lastPart ':' q = l := by
  unfold lastPart
  cases h with
  | plain h => rw [splitOn_none h]; rfl
  | prefixed hp hl => rw [splitOn_colon hp, splitOn_none hl]; rfl

/-- An element that refers to another one has a field for that. -/
theorem ref_field {known : List Str} {e : DElement} {fs : List PyField} {q : Str} (h : elementFields prefixes known e = .ok fs)
    (hr : e.ref = some q) (hq : q ≠ []) :
    ∃ r, pyRef prefixes known (.item (some q) e.type e.simpleType.isSome) = .ok r ∧ .ref (lastPart ':' q) r ∈ fs := by
  unfold elementFields at h
  obtain ⟨a, _, h⟩ := bind_eq_ok.1 h
  obtain ⟨b, _, h⟩ := bind_eq_ok.1 h
  obtain ⟨c, h1, h⟩ := bind_eq_ok.1 h
  unfold refField at h1
  rw [nonEmpty_of hr hq] at h1
  obtain ⟨r, h2, h1⟩ := bind_eq_ok.1 h1
  rw [hr] at h2
  refine ⟨r, h2, ?_⟩
  rw [← Except.ok.inj h, ← Except.ok.inj h1]
  exact List.mem_append_right _ List.mem_cons_self

theorem type_field {known : List Str} {e : DElement} {fs : List PyField} {q : Str} (h : elementFields prefixes known e = .ok fs)
    (hr : e.ref = none) (ht : e.type = some q) (hq : q ≠ []) :
    ∃ r, pyRef prefixes known (.item none (some q) e.simpleType.isSome) = .ok r ∧
      ∃ f ∈ fs, (∃ a b c d, f = .element a r b c d) ∨ ∃ a b c d g, f = .list a r b c d g := by
  unfold elementFields at h
  obtain ⟨a, h1, h⟩ := bind_eq_ok.1 h
  obtain ⟨b, _, h⟩ := bind_eq_ok.1 h
  obtain ⟨c, _, h⟩ := bind_eq_ok.1 h
  unfold typedField at h1
  rw [nonEmpty_of ht hq] at h1
  obtain ⟨r, h2, h1⟩ := bind_eq_ok.1 h1
  rw [hr, ht] at h2
  refine ⟨r, h2, ?_⟩
  rw [← Except.ok.inj h]
  split at h1
  · rw [← Except.ok.inj h1]
    exact ⟨_, List.mem_append_left _ (List.mem_append_left _ List.mem_cons_self), .inr ⟨_, _, _, _, _, rfl⟩⟩
  · rw [← Except.ok.inj h1]
    exact ⟨_, List.mem_append_left _ (List.mem_append_left _ List.mem_cons_self), .inl ⟨_, _, _, _, rfl⟩⟩

theorem field_parts {name : Str} {o : FieldObj} {f : Field} (h : FieldObj.field compile iso env name o = some f) :
    f.name = name ∧ (FieldObj.type o).ftype compile iso env = some f.type ∧ (f.kind = .ref ↔ ∃ u, o = .ref u) ∧
    (f.kind = .list ↔ ∃ u t a b c, o = .list u t a b c) ∧ f.default = Val.none := by
  unfold FieldObj.field at h
  cases o with
  | «attribute» u t r =>
    simp only at h
    cases hu : u.ftype compile iso env with
    | none => rw [hu] at h; cases h
    | some t => rw [hu] at h; rw [← Option.some.inj h]; simp [FieldObj.type, hu]
  | ref u =>
    simp only at h
    cases hu : u.ftype compile iso env with
    | none => rw [hu] at h; cases h
    | some t => rw [hu] at h; rw [← Option.some.inj h]; simp [FieldObj.type, hu]
  | element u t a b =>
    simp only at h
    cases hu : u.ftype compile iso env with
    | none => rw [hu] at h; cases h
    | some t => rw [hu] at h; rw [← Option.some.inj h]; simp [FieldObj.type, hu]
  | list u t a b c =>
    simp only at h
    cases hu : u.ftype compile iso env with
    | none => rw [hu] at h; cases h
    | some t => rw [hu] at h; rw [← Option.some.inj h]; simp [FieldObj.type, hu]

/-- A class whose base is one of the classes of soapfish.xsd for types with fields. -/
theorem class_object (he : Imported m limit env s) (hd : (m.classes.map (·.name)).Nodup) (ho : m.OneEach) {c : PyClassDef}
    (hc : c ∈ m.classes) {b : Str} (hb : c.base = .xsd b) (hbs : b = py"ComplexType" ∨ b = py"Group" ∨ b = py"AttributeGroup") :
    ∃ i e os, env.get c.name = some (.complex { name := c.name, indicator := i, fields := os, bases := [c.name]
                                                group := decide (b ≠ py"ComplexType") }) ∧
      All2 (fun f p => p.1 = f.target ∧ ∃ bound, py"xsd" ∉ bound ∧ execField e bound f = .ok p.2) c.fields os ∧
      ∀ n x, e.get n = some x → env.get n = some x := by
  obtain ⟨e, o, e1, e2, e3⟩ := execClasses_mem he.classes hd (fun _ _ => rfl) c hc
  have hb' : baseClass e c.base = .ok (.complex { name := b, group := decide (b ≠ py"ComplexType") }) := by
    rw [hb]
    rcases hbs with rfl | rfl | rfl <;> rfl
  obtain ⟨os, e4, e5⟩ := execClass_on hb' (ho c hc).1 (ho c hc).2 e1
  have ho' := (Prod.mk.inj (List.cons.inj e4).1).2
  subst ho'
  exact ⟨_, e, os, e2, e5, e3⟩

/-- A field whose type accepts nothing. -/
theorem newInst_any {T : Table} {c : ClsId} {f : Field} (hf : f ∈ (T c).fields) (ht : f.type = .any) (hk : f.kind ≠ .list)
    (hd : f.default = Val.none) : ∀ k v, newInst T k c ≠ .ok v := by
  intro k v h
  cases k with
  | zero => cases h
  | succ k =>
    unfold newInst at h
    obtain ⟨fs, h1, _⟩ := bind_eq_ok.1 h
    obtain ⟨x, _, h2⟩ := mapE_mem_left h1 f hf
    obtain ⟨v, h3, h2⟩ := bind_eq_ok.1 h2
    obtain ⟨w, h4, _⟩ := bind_eq_ok.1 h2
    unfold Field.accept at h4
    rw [if_neg hk] at h4
    obtain ⟨_, _, h5⟩ := bind_eq_ok.1 h4
    unfold Field.acceptItem at h5
    have hv : v.isNil = false := by
      unfold emptyValue at h3
      rw [ht, hd] at h3
      split at h3 <;> first | exact absurd ‹_› hk | (rw [← Except.ok.inj h3]; rfl)
    rw [hv, ht] at h5
    cases h5

theorem has_class (hm : schemaToPy prefixes digest n parent d = .ok m) {N : Str} {g : Bool} (h : HasParts d N g) :
    ∃ c ∈ m.classes, ∃ b, c.name = N ∧ c.base = .xsd b ∧
      (b = py"ComplexType" ∨ b = py"Group" ∨ b = py"AttributeGroup") ∧ g = decide (b ≠ py"ComplexType") := by
  obtain ⟨cts, r, ag, gs, cs, ts, h1, h2, h3, h4, h5, h6, h7⟩ := schemaToPy_parts hm
  rw [h7]
  cases h with
  | attributeGroup hg hn =>
    obtain ⟨c, hc, h8⟩ := (mapE_all2 h3).mem_left hg
    refine ⟨c, by simp [hc], py"AttributeGroup", ?_⟩
    unfold attributeGroupClass at h8
    obtain ⟨N, h9, h8⟩ := bind_eq_ok.1 h8
    obtain ⟨_, _, h8⟩ := bind_eq_ok.1 h8
    rw [hn] at h9
    rw [← Except.ok.inj h8, capitalizeO_some h9]
    exact ⟨rfl, rfl, .inr (.inr rfl), rfl⟩
  | group hg hn =>
    obtain ⟨c, hc, h8⟩ := (mapE_all2 h4).mem_left hg
    refine ⟨c, by simp [hc], py"Group", ?_⟩
    unfold groupClass at h8
    obtain ⟨N, h9, h8⟩ := bind_eq_ok.1 h8
    obtain ⟨_, _, h8⟩ := bind_eq_ok.1 h8
    rw [hn] at h9
    rw [← Except.ok.inj h8, capitalizeO_some h9]
    exact ⟨rfl, rfl, .inr (.inl rfl), rfl⟩
  | complex hct hcc hn =>
    obtain ⟨k, cl, k', h8, h9⟩ := collect_mem h5 _ ((reorderComplex_mem h1 _).1 hct)
    unfold complexClasses at h8
    obtain ⟨c, h10, h8⟩ := bind_eq_ok.1 h8
    obtain ⟨N, h11, h8⟩ := bind_eq_ok.1 h8
    have hl := (Prod.mk.inj (Except.ok.inj h8)).1
    have := h9 c (by rw [← hl]; exact List.mem_cons_self)
    refine ⟨c, by simp [this], py"ComplexType", ?_⟩
    rw [hn] at h10
    obtain ⟨b1, b2, -⟩ := complexBody_eq (complexClass_plain hcc h10)
    exact ⟨b1, b2, .inl rfl, rfl⟩
  | @element e ct n' he hct hcc hn =>
    obtain ⟨l, hl, h8⟩ := (mapE_all2 h6).mem_left he
    unfold topClasses at h8
    rw [hct, hn] at h8
    obtain ⟨c, h9, h8⟩ := bind_eq_ok.1 h8
    have hc : c ∈ ts.flatten := List.mem_flatten.2 ⟨l, hl, by rw [← Except.ok.inj h8]; exact List.mem_cons_self⟩
    refine ⟨c, List.mem_append_right _ hc, py"ComplexType", ?_⟩
    obtain ⟨b1, b2, -⟩ := complexBody_eq (complexClass_plain hcc h9)
    exact ⟨b1, b2, .inl rfl, rfl⟩

theorem has_object (hm : schemaToPy prefixes digest n parent d = .ok m) (he : Imported m limit env s)
    (hd : (m.classes.map (·.name)).Nodup) (ho : m.OneEach) {N : Str} {g : Bool} (h : HasParts d N g) :
    ∃ o, env.get N = some (.complex o) ∧ o.name = N ∧ o.group = g := by
  obtain ⟨c, hc, b, rfl, hb, hbs, rfl⟩ := has_class hm h
  obtain ⟨i, e, os, h1, _⟩ := class_object he hd ho hc hb hbs
  exact ⟨_, h1, rfl, rfl⟩

/-- An attribute that refers to another one is one of that name. -/
theorem attributeField_ref {known : List Str} {a : DAttribute} {q l : Str} {p : Option Str} (hr : a.ref = some q) (hq0 : q ≠ [])
    (hq : Qualified q p l) :
    attributeField prefixes known a = attributeField prefixes known { name := some l, type := some q, use := a.use } := by
  have h1 : itemName a.ref a.name = some l := by
    unfold itemName localPart
    rw [nonEmpty_of hr hq0, Option.isSome_some, if_pos rfl, Option.map_some, lastPart_local hq]
  have h2 : pyRef prefixes known (.item a.ref a.type a.simpleType) = pyRef prefixes known (.item none (some q) false) := by
    unfold pyRef
    rw [hr, item_ref hq0, item_type hq0]
  unfold attributeField
  rw [h1, h2]
  rfl

theorem attribute_gives (hm : schemaToPy prefixes digest n parent d = .ok m) (he : Imported m limit env s)
    (hex : execModule vars [] limit m = .ok (env, s)) (hd : (m.classes.map (·.name)).Nodup) {known bound : List Str} {e : PyEnv}
    {a : DAttribute} {pf : PyField} {p : Str × FieldObj} {f : Field}
    (h : attributeField prefixes known a = .ok pf) (hi : isIdent pf.target = true)
    (ht : p.1 = pf.target) (hx : execField e bound pf = .ok p.2) (mono : ∀ n x, e.get n = some x → env.get n = some x)
    (hf : FieldObj.field compile iso env p.1 p.2 = some f) : AttributeGives prefixes d env compile iso a f := by
  refine ⟨fun hr hs => ?_, fun q p' l hr hq0 hq => ?_⟩
  · obtain ⟨h4, r, u, h5, h6, h7⟩ := attr_field h hr hs hi ht hx hf
    refine ⟨h4, fun q hq hq0 => ?_⟩
    rw [hq] at h5
    exact typeMeans hm he hex hd hq0 h5 h6 h7 mono
  · rw [attributeField_ref hr hq0 hq] at h
    obtain ⟨h4, r, u, h5, h6, h7⟩ := attr_field h rfl rfl hi ht hx hf
    exact ⟨⟨h4.name, h4.kind, h4.required, h4.bare⟩, typeMeans hm he hex hd hq0 h5 h6 h7 mono⟩

theorem ref_means (hm : schemaToPy prefixes digest n parent d = .ok m) (he : Imported m limit env s)
    (hd : (m.classes.map (·.name)).Nodup) (ho : m.OneEach) {known bound : List Str} {e : PyEnv} {src : TypeSource} {q l nm : Str}
    {r : PyRef} {p : Str × FieldObj} {p' : Option Str} {f : Field} (hs : src.qname = .ok q) (hq : Qualified q p' l) (hp : p' ∉ prefixes)
    (hr : pyRef prefixes known src = .ok r) (hn : nm = l) (ht : p.1 = nm) (hx : execField e bound (.ref nm r) = .ok p.2)
    (mono : ∀ n x, e.get n = some x → env.get n = some x) (hev : evaluateUse env limit (FieldObj.type p.2) = .ok ())
    (hf : FieldObj.field compile iso env p.1 p.2 = some f) : RefField d env l f := by
  obtain ⟨h1, h2, h3, -⟩ := field_parts hf
  obtain ⟨o, hg, htar⟩ := evaluated_ref hs hq hp hr (execField_type hx (.inr (.inl ⟨_, rfl⟩))) mono hev
  refine ⟨h1.trans (ht.trans hn), h3.2 ?_, fun g hgi => ?_⟩
  · unfold execField at hx
    split at hx
    · cases hx
    simp only at hx
    obtain ⟨u, _, hx⟩ := bindI hx
    exact ⟨u, (Except.ok.inj hx).symm⟩
  · obtain ⟨o', hg', hname, _⟩ := has_object hm he hd ho hgi
    rw [hg] at hg'
    obtain rfl := Option.some.inj hg'
    unfold TypeUse.ftype at h2
    rw [htar] at h2
    unfold ClassObj.use at h2
    simp only [hname, hg] at h2
    exact (Option.some.inj h2).symm

theorem element_gives (hm : schemaToPy prefixes digest n parent d = .ok m) (he : Imported m limit env s)
    (hex : execModule vars [] limit m = .ok (env, s)) (hd : (m.classes.map (·.name)).Nodup) (ho : m.OneEach) {known : List Str} {e : PyEnv}
    {el : DElement} {pfs : List PyField} {ps : List (Str × FieldObj)} {fs : List Field}
    (h : elementFields prefixes known el = .ok pfs) (hi : ∀ pf ∈ pfs, isIdent pf.target = true)
    (hx : All2 (fun f p => p.1 = f.target ∧ ∃ bound, py"xsd" ∉ bound ∧ execField e bound f = .ok p.2) pfs ps)
    (mono : ∀ n x, e.get n = some x → env.get n = some x)
    (hev : ∀ p ∈ ps, evaluateUse env limit (FieldObj.type p.2) = .ok ())
    (hf : All2 (fun p f => FieldObj.field compile iso env p.1 p.2 = some f) ps fs) :
    ElementGives prefixes d env compile iso el fs := by
  refine ⟨fun hr hs ht hb htyped => ?_, fun hr htyped => ?_, fun q p' l hr hq0 hq hp htyped => ?_⟩
  · obtain ⟨nm, hn⟩ := Option.isSome_iff_exists.1 hs
    have hne : ∃ pf, pf ∈ pfs := by
      rcases elementFields_cases h hr ht hb hn with ⟨h1, _⟩ | ⟨q, r, b, hq, _, _, _, _, _, hl⟩ | ⟨q, r, hq, _, _, _, _, hl⟩ |
        ⟨st, r, args, _, hst, hl, _, _⟩
      · rw [htyped] at h1; cases h1
      all_goals exact ⟨_, hl ▸ List.mem_cons_self⟩
    obtain ⟨pf, hpf⟩ := hne
    obtain ⟨p, hpm, hpt, bound, _, hpx⟩ := hx.mem_left hpf
    obtain ⟨f, hfm, hff⟩ := hf.mem_left hpm
    obtain ⟨h1, h2, h3⟩ := elem_field h hpf ⟨hr, hs, ht, hb⟩ (hi pf hpf) hpt hpx hff
    rw [h1] at hx
    cases hx with
    | cons _ hx0 =>
      cases hx0
      rw [List.mem_singleton] at hpm
      subst hpm
      cases hf with
      | cons hff' hf0 =>
        cases hf0
        rw [List.mem_singleton] at hfm
        subst hfm
        refine ⟨f, rfl, h2, fun q hq => ?_⟩
        obtain ⟨r, u, h6, h7, h8, h9⟩ := h3 q hq
        exact typeMeans hm he hex hd h6 h7 h8 h9 mono
  · have : pfs = [] := by
      unfold DElement.typed at htyped
      rw [Bool.or_eq_false_iff] at htyped
      have h1 : el.type = none := by cases hx : el.type with | none => rfl | some x => rw [hx] at htyped; cases htyped.1
      have h2 : el.simpleType = none := by cases hx : el.simpleType with | none => rfl | some x => rw [hx] at htyped; cases htyped.2
      unfold elementFields typedField inPlaceField refField at h
      rw [h1, h2, hr] at h
      exact (Except.ok.inj h).symm
    subst this
    cases hx
    cases hf
    rfl
  · obtain ⟨r, h2, h3⟩ := ref_field h hr hq0
    have : pfs = [.ref (lastPart ':' q) r] := by
      unfold DElement.typed at htyped
      rw [Bool.or_eq_false_iff] at htyped
      have h1 : el.type = none := by cases hx : el.type with | none => rfl | some x => rw [hx] at htyped; cases htyped.1
      have h4 : el.simpleType = none := by cases hx : el.simpleType with | none => rfl | some x => rw [hx] at htyped; cases htyped.2
      unfold elementFields typedField inPlaceField refField at h
      rw [hr] at h
      rw [nonEmpty_of rfl hq0, h1, h4] at h
      rw [h1, h4] at h2
      simp only [Option.isSome_none] at h2
      simp only [h2, bind, Except.bind, nonEmpty, Option.isSome_none] at h
      exact (Except.ok.inj h).symm
    subst this
    cases hx with
    | @cons _ p _ _ h5 hx0 =>
      cases hx0
      cases hf with
      | @cons _ f _ _ hff hf0 =>
        cases hf0
        obtain ⟨ht, bound, _, h6⟩ := h5
        exact ⟨f, rfl, ref_means hm he hd ho (item_ref hq0) hq hp h2 (lastPart_local hq) ht h6 mono (hev _ List.mem_cons_self) hff⟩

theorem cls_name {i : ClsId} {o : ComplexObj} {info : SchemaInfo} {c : Cls} (h : o.cls compile iso env info i = some c) :
    c.name = o.name := by
  unfold ComplexObj.cls at h
  cases hf : mapO (fun p : Str × FieldObj => FieldObj.field compile iso env p.1 p.2) o.fields with
  | none => rw [hf] at h; cases h
  | some fs => rw [hf] at h; rw [← Option.some.inj h]

/-- An element of a group is one that must occur once. -/
theorem groupField_as {known : List Str} {e : DElement} {pf : PyField} {nm q : Str} {p : Option Str}
    (h : groupField prefixes known e = .ok pf)
    (hn : e.ref = none ∧ e.name = some nm ∧ e.type = some q ∨ e.ref = some q ∧ Qualified q p nm) (hq0 : q ≠ []) :
    elementFields prefixes known { name := some nm, type := some q } = .ok [pf] := by
  have h1 : itemName e.ref e.name = some nm := by
    rcases hn with ⟨h1, h2, _⟩ | ⟨h1, h2⟩
    · rw [h1]; exact h2
    · unfold itemName localPart
      rw [nonEmpty_of h1 hq0, Option.isSome_some, if_pos rfl, Option.map_some, lastPart_local h2]
  have h2 : pyRef prefixes known (.item e.ref e.type e.simpleType.isSome) = pyRef prefixes known (.item none (some q) false) := by
    unfold pyRef
    rcases hn with ⟨h1, _, h2⟩ | ⟨h1, _⟩
    · rw [h1, h2, item_type hq0, item_type hq0]
    · rw [h1, item_ref hq0, item_type hq0]
  unfold groupField at h
  rw [h1, h2] at h
  obtain ⟨r, h3, h⟩ := bind_eq_ok.1 h
  unfold elementFields typedField inPlaceField refField
  rw [nonEmpty_of rfl hq0]
  simp only [h3, bind, Except.bind, Option.isSome_none, manyOccurs, nonEmpty]
  rw [← Except.ok.inj h]
  rfl

theorem single_field {known : List Str} {e : DElement} {fs : List PyField} {q : Str} (h : elementFields prefixes known e = .ok fs)
    (hr : e.ref = none) (ht : e.type = some q) (hq : q ≠ []) (hm : ¬ e.Many) :
    ∃ r, pyRef prefixes known (.item none (some q) e.simpleType.isSome) = .ok r ∧ ∃ a b c d, .element a r b c d ∈ fs := by
  unfold elementFields at h
  obtain ⟨a, h1, h⟩ := bind_eq_ok.1 h
  obtain ⟨b, _, h⟩ := bind_eq_ok.1 h
  obtain ⟨c, _, h⟩ := bind_eq_ok.1 h
  unfold typedField at h1
  rw [nonEmpty_of ht hq] at h1
  obtain ⟨r, h2, h1⟩ := bind_eq_ok.1 h1
  rw [hr, ht] at h2
  refine ⟨r, h2, ?_⟩
  rw [← Except.ok.inj h]
  split at h1
  · rename_i b hb
    refine absurd ?_ hm
    unfold manyOccurs at hb
    split at hb
    · rename_i k hk
      split at hb
      · exact ⟨_, hk, by assumption⟩
      · cases hb
    · rename_i hk
      exact ⟨_, hk, trivial⟩
    · cases hb
  · rw [← Except.ok.inj h1]
    exact ⟨_, _, _, _, List.mem_append_left _ (List.mem_append_left _ List.mem_cons_self)⟩

/-- The class for a list type. -/
theorem list_object (hm : schemaToPy prefixes digest n parent d = .ok m) (he : Imported m limit env s)
    (hd : (m.classes.map (·.name)).Nodup) {st : DSimple} (hst : st ∈ d.simpleTypes) (hl : st.list = true) {L : Str}
    (hn : st.name = some L) :
    env.get (capName L) = some (.simple { cls := .derived (capName L) (.builtin .list), enumeration := none, facets := [] }) := by
  obtain ⟨cts, r, ag, gs, cs, ts, -, h2, -, -, -, -, h7⟩ := schemaToPy_parts hm
  obtain ⟨k, cl, k', h8, h9⟩ := collect_mem h2 _ hst
  unfold simpleClasses at h8
  obtain ⟨a, _, h8⟩ := bind_eq_ok.1 h8
  obtain ⟨b, h10, h8⟩ := bind_eq_ok.1 h8
  obtain ⟨N, _, h8⟩ := bind_eq_ok.1 h8
  rw [if_pos hl] at h10
  obtain ⟨c, h11, h10⟩ := bind_eq_ok.1 h10
  have hc : c ∈ m.classes := by
    have := h9 c (by rw [← (Prod.mk.inj (Except.ok.inj h8)).1, ← Except.ok.inj h10]; simp)
    rw [h7]; simp [this]
  unfold listClass at h11
  rw [hn] at h11
  obtain ⟨N, h12, h11⟩ := bind_eq_ok.1 h11
  rw [capitalizeO_some h12] at h11
  have hcc := (Except.ok.inj h11).symm
  obtain ⟨e, o, e1, e2, e3⟩ := execClasses_mem he.classes hd (fun _ _ => rfl) c hc
  have hb : baseClass e c.base = .ok (.simple { cls := .builtin .list }) := by rw [hcc]; rfl
  obtain ⟨x, f, h13, h14, h15⟩ := execClass_on_simple hb e1
  have ho := (Prod.mk.inj (List.cons.inj h15).1).2
  subst ho
  have hx : x = none := by rw [hcc] at h13; exact (Except.ok.inj h13).symm
  have hf : f = [] := by rw [hcc] at h14; exact (Except.ok.inj h14).symm
  subst hx hf
  have hcn : c.name = capName L := by rw [hcc]
  rw [hcn] at e2
  exact e2

end

end Soapfish
