import Verif.RunNew
import Verif.RunInPlace
import Verif.Spec.CodeFields
/-
The classes for plain complex types.
-/
set_option maxRecDepth 8000
namespace Soapfish

section
variable {prefixes : List (Option Str)} {digest : Str → Str} {n limit : Nat} {parent : Option Str} {d : DSchema}
  {m : PyModule} {vars : SchemaVars} {env : PyEnv} {s : GSchema} {compile : Str → Pattern} {iso : Iso} {T : Table}

theorem contentElements_elements (c : DContent) : (contentElements c).2 = c.elements := by
  unfold contentElements DContent.elements
  cases c.sequence <;> cases c.all <;> cases c.choice <;> rfl

theorem fixKeyword_pyName (n : Str) : fixKeywordO (some n) = pyName n := rfl

/-- The fields written for an element. -/
theorem elementFields_cases {known : List Str} {e : DElement} {fs : List PyField} (h : elementFields prefixes known e = .ok fs)
    (hr : e.ref = none) (ht : e.type ≠ some []) (hb : ¬ (e.type.isSome ∧ e.simpleType.isSome)) {n : Str}
    (hn : e.name = some n) :
    (e.typed = false ∧ fs = []) ∨
    (∃ q r b, e.type = some q ∧ q ≠ [] ∧ e.simpleType = none ∧ e.maxOccurs = some b ∧ ManyBound b ∧
      pyRef prefixes known (.item none (some q) false) = .ok r ∧ fs = [.list (pyName n) r n e.minOccurs b e.nillable]) ∨
    (∃ q r, e.type = some q ∧ q ≠ [] ∧ e.simpleType = none ∧ ¬ e.Many ∧ pyRef prefixes known (.item none (some q) false) = .ok r ∧
      fs = [.element (pyName n) r (if n ∈ kwlist then some n else none) e.minOccurs e.nillable]) ∨
    (∃ st r args, e.type = none ∧ e.simpleType = some st ∧ fs = [.inPlace (pyName n) r args] ∧ (n ∈ kwlist → ∃ a, (py"tagname", a) ∈ args) ∧
      pyRef prefixes known (baseSource (st.restriction.map (·.base))) = .ok r) := by
  unfold elementFields at h
  simp only [bind, Except.bind] at h
  have h3 : refField prefixes known e = .ok [] := by unfold refField; rw [hr]; rfl
  cases hty : e.type with
  | none =>
    have h1 : typedField prefixes known e = .ok [] := by unfold typedField; rw [hty]; rfl
    cases hst : e.simpleType with
    | none =>
      have h2 : inPlaceField prefixes known e = .ok [] := by unfold inPlaceField; rw [hst]
      simp only [h1, h2, h3] at h
      exact .inl ⟨by unfold DElement.typed; rw [hty, hst]; rfl, (Except.ok.inj h).symm⟩
    | some st =>
      rw [h1] at h
      simp only [h3] at h
      unfold inPlaceField at h
      rw [hst] at h
      simp only [bind, Except.bind] at h
      cases hp : pyRef prefixes known (baseSource (st.restriction.map (·.base))) with
      | error e => rw [hp] at h; cases h
      | ok r =>
        rw [hp] at h
        refine .inr (.inr (.inr ⟨st, r, inPlaceArgs (some n) (st.restriction.getD { base := none }), rfl, rfl, ?_, ?_, hp⟩))
        · have := Except.ok.inj h
          rw [hn] at this
          simp only [List.nil_append, List.append_nil, fixKeyword_pyName] at this
          exact this.symm
        · intro hk
          refine ⟨.text n, ?_⟩
          unfold inPlaceArgs
          simp only [List.mem_append, isKeyword]
          simp [hk, textOf]
  | some q =>
    have hq : q ≠ [] := fun hq => ht (by rw [hty, hq])
    have hst : e.simpleType = none := by
      cases hst : e.simpleType with
      | none => rfl
      | some st => exact absurd ⟨by rw [hty]; rfl, by rw [hst]; rfl⟩ hb
    have h2 : inPlaceField prefixes known e = .ok [] := by unfold inPlaceField; rw [hst]
    cases q with
    | nil => exact absurd rfl hq
    | cons c cs =>
    simp only [h2, h3] at h
    unfold typedField at h
    rw [hty, hst, hr] at h
    simp only [nonEmpty, bind, Except.bind, Option.isSome_none] at h
    cases hp : pyRef prefixes known (.item none (some (c :: cs)) false) with
    | error e => rw [hp] at h; cases h
    | ok r =>
      rw [hp] at h
      simp only at h
      cases hm : manyOccurs e.maxOccurs with
      | some b =>
        rw [hm] at h
        refine .inr (.inl ⟨c :: cs, r, b, rfl, hq, hst, ?_, ?_, hp, ?_⟩)
        · unfold manyOccurs at hm
          split at hm
          · split at hm
            · rename_i hx _; rw [hx]; exact congrArg some (Option.some.inj hm)
            · cases hm
          · rename_i hx; rw [hx]; exact congrArg some (Option.some.inj hm)
          · cases hm
        · unfold manyOccurs at hm
          split at hm
          · split at hm
            · rename_i h1; rw [← Option.some.inj hm]; exact h1
            · cases hm
          · rw [← Option.some.inj hm]; trivial
          · cases hm
        · have := Except.ok.inj h
          rw [hn] at this
          exact this.symm
      | none =>
        rw [hm] at h
        refine .inr (.inr (.inl ⟨c :: cs, r, rfl, hq, hst, ?_, hp, ?_⟩))
        · rintro ⟨b, hb1, hb2⟩
          rw [hb1] at hm
          cases b with
          | int k => unfold manyOccurs at hm; simp only at hm; rw [if_pos (show 1 < k from hb2)] at hm; cases hm
          | unbounded => cases hm
        · have := Except.ok.inj h
          rw [hn] at this
          rw [← this]
          simp only [isKeyword, fixKeyword_pyName, List.append_nil]
          by_cases hk : n ∈ kwlist
          · simp [hk, textOf]
          · simp [hk]

theorem attributeField_eq {known : List Str} {a : DAttribute} {f : PyField} (h : attributeField prefixes known a = .ok f)
    (hr : a.ref = none) {n : Str} (hn : a.name = some n) :
    ∃ r use, pyRef prefixes known (.item none a.type a.simpleType) = .ok r ∧
      useText ((nonEmpty a.use).getD py"optional") = .ok use ∧
      f = .attribute (pyName n) r (if n ∈ kwlist then some n else none) use := by
  unfold attributeField at h
  rw [hr, hn] at h
  simp only [bind, Except.bind] at h
  cases hp : pyRef prefixes known (.item none a.type a.simpleType) with
  | error e => rw [hp] at h; cases h
  | ok r =>
    rw [hp] at h
    cases hu : useText ((nonEmpty a.use).getD py"optional") with
    | error e => rw [hu] at h; cases h
    | ok u =>
      rw [hu] at h
      refine ⟨r, u, rfl, rfl, ?_⟩
      rw [← Except.ok.inj h]
      simp only [itemName, nonEmpty, isKeyword, Option.isSome_none]
      by_cases hk : n ∈ kwlist
      · simp [hk, textOf, fixKeyword_pyName]
      · simp [hk, fixKeyword_pyName]

theorem attrs_targets {known : List Str} {as : List DAttribute} {fs : List PyField}
    (h : All2 (fun a f => attributeField prefixes known a = .ok f) as fs) (hp : ∀ a ∈ as, a.ref = none ∧ a.name.isSome) :
    fs.map PyField.target = (as.filterMap (·.name)).map pyName := by
  induction h with
  | nil => rfl
  | @cons a f as fs h1 _ ih =>
    obtain ⟨hr, hs⟩ := hp a List.mem_cons_self
    obtain ⟨n, hn⟩ := Option.isSome_iff_exists.1 hs
    obtain ⟨r, u, _, _, rfl⟩ := attributeField_eq h1 hr hn
    rw [List.map_cons, List.filterMap_cons_some hn, List.map_cons, ih fun a ha => hp a (List.mem_cons_of_mem _ ha)]
    rfl

theorem elems_targets {known : List Str} {es : List DElement} {fs : List (List PyField)}
    (h : All2 (fun e f => elementFields prefixes known e = .ok f) es fs)
    (hp : ∀ e ∈ es, e.ref = none ∧ e.name.isSome ∧ e.type ≠ some [] ∧ ¬ (e.type.isSome ∧ e.simpleType.isSome)) :
    fs.flatten.map PyField.target = ((es.filter (·.typed)).filterMap (·.name)).map pyName := by
  induction h with
  | nil => rfl
  | @cons e f es fs h1 _ ih =>
    obtain ⟨hr, hs, h3, h4⟩ := hp e List.mem_cons_self
    obtain ⟨n, hn⟩ := Option.isSome_iff_exists.1 hs
    rw [List.flatten_cons, List.map_append, ih fun a ha => hp a (List.mem_cons_of_mem _ ha)]
    have hsome : ∀ q, e.type = some q → e.typed = true := by
      intro q hq; unfold DElement.typed; rw [hq]; rfl
    rcases elementFields_cases h1 hr h3 h4 hn with ⟨ht, rfl⟩ | ⟨q, r, b, hq, _, _, _, _, _, rfl⟩ | ⟨q, r, hq, _, _, _, _, rfl⟩ |
      ⟨st, r, args, _, hst, rfl, _, _⟩
    · rw [List.filter_cons_of_neg (by rw [ht]; decide)]; rfl
    · rw [List.filter_cons_of_pos (hsome q hq), List.filterMap_cons_some hn]; rfl
    · rw [List.filter_cons_of_pos (hsome q hq), List.filterMap_cons_some hn]; rfl
    · rw [List.filter_cons_of_pos (by unfold DElement.typed; rw [hst]; simp), List.filterMap_cons_some hn]; rfl

theorem content_targets {known : List Str} {c : DContent} {as : List PyField} {es : List (List PyField)} (hp : PlainContent c)
    (h1 : All2 (fun a f => attributeField prefixes known a = .ok f) c.attributes as)
    (h2 : All2 (fun e f => elementFields prefixes known e = .ok f) c.elements es) :
    (as ++ es.flatten).map PyField.target = c.fieldNames := by
  rw [List.map_append, attrs_targets h1 hp.attributes, elems_targets h2 hp.elements]
  unfold DContent.fieldNames
  rw [List.map_append]

/-- The class of a complex type with the content `c` on top of the class `base`. -/
structure LayerClass (prefixes : List (Option Str)) (c : DContent) (N : Str) (m : PyModule) (env : PyEnv) (known : List Str)
    (cls : PyClassDef) (e : PyEnv) (base : ComplexObj) (os : List (Str × FieldObj)) (as : List PyField) (es : List (List PyField)) :
    Prop where
  mem : cls ∈ m.classes
  listed : capName N ∈ m.schema.complexTypes
  name : cls.name = capName N
  create : cls.create = c.sequence.map createParams
  attrs : All2 (fun a f => attributeField prefixes known a = .ok f) c.attributes as
  elems : All2 (fun e f => elementFields prefixes known e = .ok f) c.elements es
  fields : cls.fields = as ++ es.flatten
  get : env.get (capName N) = some (.complex { name := capName N, indicator := cls.indicator.getD base.indicator
                                               fields := base.fields ++ os, bases := capName N :: base.bases
                                               group := base.group })
  exec : All2 (fun f p => p.1 = f.target ∧ ∃ bound, py"xsd" ∉ bound ∧ execField e bound f = .ok p.2) cls.fields os
  mono : ∀ n x, e.get n = some x → env.get n = some x
  indicator : cls.indicator = (contentElements c).1

theorem LayerClass.names {c : DContent} {N : Str} {known : List Str} {cls : PyClassDef} {e : PyEnv} {base : ComplexObj}
    {os : List (Str × FieldObj)} {as : List PyField} {es : List (List PyField)}
    (h : LayerClass prefixes c N m env known cls e base os as es) (hp : PlainContent c) : os.map (·.1) = c.fieldNames := by
  rw [all2_targets h.exec, h.fields, content_targets hp h.attrs h.elems]

theorem layer_class (he : Imported m limit env s) (hd : (m.classes.map (·.name)).Nodup) {c : DContent} {N : Str} {known : List Str}
    {cls : PyClassDef} {ref : PyRef} (hcls : complexBody prefixes known (capName N) ref c = .ok cls) (hmem : cls ∈ m.classes)
    (hlist : capName N ∈ m.schema.complexTypes) (hp : PlainContent c) {base : ComplexObj}
    (hbase : ∀ e o, (∀ n x, e.get n = some x → env.get n = some x) → baseClass e ref = .ok o → o = .complex base)
    (hdist : (base.fields.map (·.1) ++ c.fieldNames).Nodup) (hcr : py"create" ∉ base.fields.map (·.1) ++ c.fieldNames) :
    ∃ e os as es, LayerClass prefixes c N m env known cls e base os as es := by
  obtain ⟨b1, b2, b3, b4, -, -, as, gs, es, b5, b6, b7, b8⟩ := complexBody_eq hcls
  rw [hp.groups] at b6
  cases b6
  rw [List.append_nil] at b8
  rw [contentElements_elements] at b7
  have htar : cls.fields.map PyField.target = c.fieldNames := by rw [b8, content_targets hp b5 b7]
  obtain ⟨e, o, e1, e2, e3⟩ := execClasses_mem he.classes hd (fun _ _ => rfl) cls hmem
  have hb : baseClass e cls.base = .ok (.complex base) := by
    rw [b2]
    cases hx : baseClass e ref with
    | error er => unfold execClass at e1; rw [b2, hx] at e1; cases e1
    | ok o' => rw [hbase e o' e3 hx]
  obtain ⟨os, e4, e5⟩ := execClass_on hb (by rw [htar]; exact hdist) (by rw [htar]; exact hcr) e1
  have ho := (Prod.mk.inj (List.cons.inj e4).1).2
  subst ho
  rw [b1] at e2
  exact ⟨e, os, as, es, hmem, hlist, b1, b4, b5, b7, b8, e2, e5, e3, b3⟩

/-- A name used as a base class. -/
theorem base_of_name {known : List Str} {q l : Str} {p : Option Str} {r : PyRef} {e : PyEnv} {o o' : ClassObj}
    (hr : pyRef prefixes known (.derived (some q)) = .ok r) (hq : Qualified q p l) (hp : p ∉ prefixes)
    (mono : ∀ n x, e.get n = some x → env.get n = some x) (hb : baseClass e r = .ok o') (hg : env.get (capName l) = some o) :
    o' = o := by
  have := pyRef_qualified (qname_base hr) hq hr
  rw [if_neg hp] at this
  subst this
  split at hb
  · unfold baseClass at hb
    simp only at hb
    split at hb
    · rename_i o'' ho''
      rw [mono _ _ ho''] at hg
      rw [← Except.ok.inj hb]
      exact Option.some.inj hg
    · cases hb
  · cases hb

theorem xsd_complex {e : PyEnv} {o : ClassObj} (h : baseClass e (.xsd py"ComplexType") = .ok o) :
    o = .complex { name := py"ComplexType" } := (Except.ok.inj h).symm

/-- A type that is not derived has one layer. -/
theorem layers_plain {prefixes : List (Option Str)} {d : DSchema} {ct : DComplex} {cs : List DContent}
    (h : Layers prefixes d ct cs) (hc : ct.complexContent = none) : cs = [ct.content] := by
  cases h with
  | own _ => rfl
  | «extension» h => rw [hc] at h; cases h

theorem layers_last {ct : DComplex} {cs : List DContent} (h : Layers prefixes d ct cs) : ∃ bs c, cs = bs ++ [c] := by
  cases h with
  | own => exact ⟨[], _, rfl⟩
  | extension => exact ⟨_, _, rfl⟩

theorem indicator_choice {c : DContent} {i : Indicator} (h : ¬ c.NoOrder) : (contentElements c).1.getD i = .choice ↔ c.IsChoice := by
  unfold contentElements DContent.IsChoice
  unfold DContent.NoOrder at h
  obtain ⟨s, ch, a, _, _⟩ := c
  cases s <;> cases a <;> cases ch <;> simp at h ⊢

/-- The indicator after one more layer. -/
theorem choice_append {bs : List DContent} {c : DContent} {i : Indicator}
    (hi : i = .choice ↔ ∃ x y z, bs = x ++ y :: z ∧ y.IsChoice ∧ ∀ c ∈ z, c.NoOrder) :
    (contentElements c).1.getD i = .choice ↔ ∃ x y z, bs ++ [c] = x ++ y :: z ∧ y.IsChoice ∧ ∀ c ∈ z, c.NoOrder := by
  by_cases hno : c.NoOrder
  · have : (contentElements c).1 = none := by
      unfold contentElements; rw [hno.1, hno.2.1, hno.2.2]
    rw [this, Option.getD_none, hi]
    constructor
    · rintro ⟨x, y, z, rfl, h5, h6⟩
      refine ⟨x, y, z ++ [c], by simp, h5, fun c' hc => ?_⟩
      rcases List.mem_append.1 hc with hc | hc
      · exact h6 c' hc
      · rw [List.mem_singleton.1 hc]; exact hno
    · rintro ⟨x, y, z, h4, h5, h6⟩
      rcases List.eq_nil_or_concat z with rfl | ⟨z', w, rfl⟩
      · have := (List.append_inj' h4 rfl).2
        cases this
        exact absurd hno.2.2 h5.2.2
      · rw [List.concat_eq_append, ← List.cons_append, ← List.append_assoc] at h4
        obtain ⟨h7, h8⟩ := List.append_inj' h4 rfl
        exact ⟨x, y, z', h7, h5, fun c' hc => h6 c' (by simp [hc])⟩
  · have hiff := indicator_choice (i := i) hno
    rw [hiff]
    constructor
    · intro h; exact ⟨bs, c, [], rfl, h, fun _ h => by cases h⟩
    · rintro ⟨x, y, z, h4, h5, h6⟩
      rcases List.eq_nil_or_concat z with rfl | ⟨z', w, rfl⟩
      · have := (List.append_inj' h4 rfl).2
        cases this
        exact h5
      · rw [List.concat_eq_append, ← List.cons_append, ← List.append_assoc] at h4
        obtain ⟨h7, h8⟩ := List.append_inj' h4 rfl
        cases h8
        exact absurd (h6 c (by simp)) hno

/-- The class of a complex type, layer by layer. -/
theorem layers_class (hm : schemaToPy prefixes digest n parent d = .ok m) (he : Imported m limit env s)
    (hd : (m.classes.map (·.name)).Nodup) {ct : DComplex} {cs : List DContent} (hl : Layers prefixes d ct cs) :
    ∀ {N : Str}, ct ∈ d.complexTypes → ct.name = some N → (∀ c ∈ cs, PlainContent c) → (layerNames cs).Nodup →
    py"create" ∉ layerNames cs →
    ∃ bs c base baseParts os known cls e as es, cs = bs ++ [c] ∧ LayerClass prefixes c N m env known cls e base os as es ∧
      base.group = false ∧ base.fields = baseParts.flatten ∧ base.fields.map (·.1) = layerNames bs ∧
      All2 (fun c part => ∃ N base known cls e as es, LayerClass prefixes c N m env known cls e base part as es) bs baseParts ∧
      (base.indicator = .choice ↔ ∃ x y z, bs = x ++ y :: z ∧ y.IsChoice ∧ ∀ c ∈ z, c.NoOrder) ∧
      (bs ≠ [] → ∃ q c p l bct, ct.complexContent = some { extension := some (some q, c) } ∧ Qualified q p l ∧
        bct ∈ d.complexTypes ∧ bct.name = some l ∧ env.get (capName l) = some (.complex base) ∧ ∃ r, base.bases = capName l :: r) := by
  induction hl with
  | @own ct hc =>
    intro N hct hn hp hdist hcr
    obtain ⟨known, cls, M, h1, h2, h3, h4⟩ := schemaToPy_complex hm hct
    rw [hn] at h1 h3
    have hp' := hp _ List.mem_cons_self
    have hnames : layerNames [ct.content] = ct.content.fieldNames := by unfold layerNames; simp
    rw [hnames] at hdist hcr
    obtain ⟨e, os, as, es, hL⟩ := layer_class he hd (complexClass_plain hc h1) h2 (by rw [← capitalizeO_some h3]; exact h4) hp'
      (base := { name := py"ComplexType" }) (fun e o _ h => xsd_complex h) (by simpa using hdist) (by simpa using hcr)
    refine ⟨[], ct.content, _, [], os, known, cls, e, as, es, rfl, hL, rfl, rfl, rfl, .nil, ?_, fun h => absurd rfl h⟩
    constructor
    · intro h; cases h
    · rintro ⟨x, y, z, h, _⟩
      cases x <;> cases h
  | @extension ct q c p l bct cs hc hq hpp hbct hbn hl ih =>
    intro N hct hn hp hdist hcr
    have hnames : layerNames (cs ++ [c]) = layerNames cs ++ c.fieldNames := by unfold layerNames; simp
    rw [hnames] at hdist hcr
    obtain ⟨bs0, c0, base0, parts0, os0, known0, cls0, e0, as0, es0, hcs, hL0, hg0, hf0, hn0, hall0, hi0, -⟩ :=
      ih hbct hbn (fun c hc => hp c (List.mem_append_left _ hc)) (List.nodup_append.1 hdist).1
        (fun h => hcr (List.mem_append_left _ h))
    have hp0 : PlainContent c0 := hp c0 (List.mem_append_left _ (by rw [hcs]; simp))
    have hpc : PlainContent c := hp c (by simp)
    have hbf : base0.fields.map (·.1) ++ os0.map (·.1) = layerNames cs := by
      rw [hn0, hL0.names hp0, hcs]; unfold layerNames; simp
    obtain ⟨known, cls, M, h1, h2, h3, h4⟩ := schemaToPy_complex hm hct
    rw [hn] at h1 h3
    obtain ⟨ref, hr1, hr2⟩ := complexClass_extension hc hn h1
    obtain ⟨e, os, as, es, hL⟩ := layer_class he hd hr2 h2 (by rw [← capitalizeO_some h3]; exact h4) hpc
      (fun e o hmono h => base_of_name hr1 hq hpp hmono h hL0.get) (by rw [List.map_append, hbf]; exact hdist)
      (by rw [List.map_append, hbf]; exact hcr)
    refine ⟨cs, c, _, parts0 ++ [os0], os, known, cls, e, as, es, rfl, hL, hg0, ?_, ?_, ?_, ?_, fun _ =>
      ⟨q, c, p, l, bct, hc, hq, hbct, hbn, hL0.get, _, rfl⟩⟩
    · show base0.fields ++ os0 = _
      rw [hf0]; simp
    · show (base0.fields ++ os0).map (·.1) = _
      rw [List.map_append, hbf]
    · rw [hcs]
      exact hall0.append (.cons ⟨_, _, _, _, _, _, _, hL0⟩ .nil)
    · show cls0.indicator.getD base0.indicator = .choice ↔ _
      rw [hL0.indicator, hcs]
      exact choice_append hi0

/-! ### Types of fields -/

theorem use_target (o : ClassObj) : o.use.target env = .ok o.use := by cases o <;> rfl

/-- What a reference to a class of the module is evaluated to. -/
theorem ref_target {known bound : List Str} {src : TypeSource} {q l : Str} {p : Option Str} {r : PyRef} {e : PyEnv} {u : TypeUse}
    {t : FType} (hs : src.qname = .ok q) (hq : Qualified q p l) (hr : pyRef prefixes known src = .ok r) (hp : p ∉ prefixes)
    (hu : typeUse e bound r = .ok u) (ht : u.ftype compile iso env = some t)
    (mono : ∀ n x, e.get n = some x → env.get n = some x) :
    ∃ o, env.get (capName l) = some o ∧ u.target env = .ok o.use := by
  have := pyRef_qualified hs hq hr
  rw [if_neg hp] at this
  split at this
  · subst this
    unfold typeUse at hu
    simp only at hu
    split at hu
    · rw [← Except.ok.inj hu] at ht; cases ht
    · split at hu
      · rename_i o ho
        rw [← Except.ok.inj hu]
        exact ⟨o, mono _ _ ho, use_target o⟩
      · cases hu
  · subst this
    rw [← Except.ok.inj (show Except.ok (TypeUse.path (capName l)) = .ok u from hu)] at ht ⊢
    cases hg : env.get (capName l) with
    | none =>
      unfold TypeUse.ftype TypeUse.target at ht
      simp only [hg] at ht
      cases ht
    | some o => exact ⟨o, rfl, by simp only [TypeUse.target, hg]⟩

theorem execClass_complex {e e' : PyEnv} {c : PyClassDef} {o : ClassObj} {b : ComplexObj} (hbase : baseClass e c.base = .ok (.complex b))
    (h : execClass e c = .ok ((c.name, o) :: e')) : ∃ x, o = .complex x ∧ x.name = c.name := by
  unfold execClass at h
  rw [hbase] at h
  simp only [bind, Except.bind] at h
  cases h1 : evalEnumeration c.enumeration with
  | error e => rw [h1] at h; cases h
  | ok a =>
    cases h2 : evalFacets c.facets with
    | error e => rw [h1, h2] at h; cases h
    | ok b =>
      cases h3 : execFields e [] c.fields with
      | error e => rw [h1, h2, h3] at h; cases h
      | ok f =>
        cases h4 : execCreate f c.create with
        | error e => rw [h1, h2, h3] at h; simp only [h4] at h; cases h
        | ok g =>
          rw [h1, h2, h3] at h
          simp only [h4] at h
          have := (Prod.mk.inj (List.cons.inj (Except.ok.inj h)).1).2
          exact ⟨_, this.symm, rfl⟩

theorem complex_object (hm : schemaToPy prefixes digest n parent d = .ok m) (he : Imported m limit env s)
    (hd : (m.classes.map (·.name)).Nodup) {ct : DComplex} {cs : List DContent} (hl : Layers prefixes d ct cs) :
    ∀ {N : Str}, ct ∈ d.complexTypes → ct.name = some N → ∃ o, env.get (capName N) = some (.complex o) ∧ o.name = capName N := by
  induction hl with
  | @own ct hp =>
    intro N hct hn
    obtain ⟨known, c, M, h1, h2, h3, h4⟩ := schemaToPy_complex hm hct
    rw [hn] at h1 h3
    obtain ⟨b1, b2, -⟩ := complexBody_eq (complexClass_plain hp h1)
    obtain ⟨e, o, e1, e2, -⟩ := execClasses_mem he.classes hd (fun _ _ => rfl) c h2
    obtain ⟨x, rfl, hx⟩ := execClass_complex (b := { name := py"ComplexType" }) (by rw [b2]; rfl) e1
    rw [b1] at e2 hx
    exact ⟨x, e2, hx⟩
  | @extension ct q c p l bct cs hc hq hpp hbct hbn hl ih =>
    intro N hct hn
    obtain ⟨b, hb, -⟩ := ih hbct hbn
    obtain ⟨known, cls, M, h1, h2, h3, h4⟩ := schemaToPy_complex hm hct
    rw [hn] at h1 h3
    obtain ⟨ref, hr1, hr2⟩ := complexClass_extension hc hn h1
    obtain ⟨b1, b2, -⟩ := complexBody_eq hr2
    obtain ⟨e, o, e1, e2, e3⟩ := execClasses_mem he.classes hd (fun _ _ => rfl) cls h2
    have hbase : baseClass e cls.base = .ok (.complex b) := by
      rw [b2]
      cases hx : baseClass e ref with
      | error er => unfold execClass at e1; rw [b2, hx] at e1; cases e1
      | ok o' => rw [base_of_name hr1 hq hpp e3 hx hb]
    obtain ⟨x, rfl, hx⟩ := execClass_complex hbase e1
    rw [b1] at e2 hx
    exact ⟨x, e2, hx⟩

theorem ftype_of_target {u : TypeUse} {n : Str} {t : FType} (h : u.target env = .ok (.complex n))
    (ht : u.ftype compile iso env = some t) : t = .complex (env.idOf n) := by
  rcases ftype_cases ht with ⟨n', o, h1, _, h'⟩ | ⟨_, h1, _⟩ | ⟨_, _, _, h1, _⟩ | ⟨_, h1, _⟩ | ⟨_, _, h1, _⟩ <;> rw [h] at h1
  · cases h1; exact h'
  all_goals cases h1

theorem builtin_ftype {b : Builtin} {t : FType}
    (ht : (TypeUse.simple { cls := .builtin b }).ftype compile iso env = some t) : t = plainType iso b := by
  have key : (TypeUse.simple { cls := .builtin b }).ftype compile iso env = some (plainType iso b) := by
    cases b with
    | int k => cases k <;> rfl
    | _ => rfl
  rw [key] at ht
  exact (Option.some.inj ht).symm

/-- The type of a field. -/
theorem typeMeans (hm : schemaToPy prefixes digest n parent d = .ok m) (he : Imported m limit env s)
    (hex : execModule vars [] limit m = .ok (env, s))
    (hd : (m.classes.map (·.name)).Nodup) {known bound : List Str} {q : Str} {b : Bool} {r : PyRef} {e : PyEnv} {u : TypeUse}
    {t : FType} (hq : q ≠ []) (hr : pyRef prefixes known (.item none (some q) b) = .ok r)
    (hu : typeUse e bound r = .ok u) (ht : u.ftype compile iso env = some t)
    (mono : ∀ n x, e.get n = some x → env.get n = some x) : TypeMeans prefixes d env compile iso q t := by
  have hqn : TypeSource.qname (.item none (some q) b) = .ok q := by
    cases q with
    | nil => exact absurd rfl hq
    | cons c cs => rfl
  refine ⟨?_, ?_, ?_⟩
  · intro p l b hql hp hb
    have := pyRef_qualified hqn hql hr
    rw [if_pos hp, hb] at this
    subst this
    have hx : typeUse e bound (.xsd b.clsName) = .ok (.simple { cls := .builtin b }) := by
      cases b with
      | int k => cases k <;> rfl
      | _ => rfl
    rw [hx] at hu
    rw [← Except.ok.inj hu] at ht
    exact builtin_ftype ht
  · intro p l b rs hql hp hder hb
    obtain ⟨o, h1, h2, _⟩ := derived_object hm hex hd hder
    obtain ⟨o', h3, h4⟩ := ref_target hqn hql hr hp hu ht mono
    rw [h1] at h3
    cases h3
    rcases ftype_cases ht with ⟨n', o', h1', _, h'⟩ | ⟨o', h1', h5, _⟩ | ⟨o', x, st, h1', h5, h6, h7, h8⟩ | ⟨_, h1', _⟩ | ⟨_, _, h1', _⟩ <;>
      rw [h4] at h1'
    · cases h1'
    · cases h1'
      unfold SimpleObj.noAccept at h5
      rw [h2] at h5
      simp at h5 hb
      rcases h5 with rfl | rfl
      · exact absurd rfl hb.1
      · exact absurd rfl hb.2
    · cases h1'
      have hobj : (TypeUse.simple o).obj env = .ok x := by
        rw [← h6]
        unfold TypeUse.obj
        rw [h4]; rfl
      have hroot : x.cls.root = some b := by
        have : Except.ok (instanceOf o ((o.cls.root.map Builtin.initKind).getD .other) []) = Except.ok x := hobj
        rw [← Except.ok.inj this]
        generalize (o.cls.root.map Builtin.initKind).getD .other = k
        cases k <;> exact h2
      refine ⟨o, st, h1, h8, ?_, ?_⟩
      · intro htb
        unfold TypeObj.stype at h7
        rw [hroot] at h7
        unfold TextBuiltin at htb
        cases b <;> simp at htb <;> (simp only at h7; obtain ⟨f, _, hf⟩ := Option.map_eq_some_iff.1 h7; exact ⟨f, hf.symm⟩)
      intro v
      unfold TypeUse.accept
      rw [hobj]
      simp only
      rw [h7]; rfl
    · cases h1'
    · cases h1'
  · intro p l ct n cs hql hp hct hcc hn hcap
    obtain ⟨o, h1, h2⟩ := complex_object hm he hd hcc hct hn
    obtain ⟨o', h3, h4⟩ := ref_target hqn hql hr hp hu ht mono
    rw [← hcap, h1] at h3
    cases h3
    rw [← hcap, ← h2]
    exact ftype_of_target h4 ht

/-! ### Names -/

theorem identC_plain {c : Char} (h : isLetterC c = true ∨ isDigitC c = true) (quote : Char) (hq : quote = '\'' ∨ quote = '"') :
    c ≠ quote ∧ c ≠ '\\' ∧ c ≠ '\n' ∧ c ≠ '\r' ∧ c ≠ Char.ofNat 0 := by
  refine ⟨?_, ?_, ?_, ?_, ?_⟩ <;> intro hc <;> subst hc
  · rcases hq with rfl | rfl <;> exact absurd h (by decide)
  all_goals exact absurd h (by decide)

theorem isIdent_plain {s : Str} (h : isIdent s = true) (quote : Char) (hq : quote = '\'' ∨ quote = '"') : PlainText quote s := by
  cases s with
  | nil => cases h
  | cons c cs =>
    unfold isIdent at h
    simp only [Bool.and_eq_true, List.all_eq_true, Bool.or_eq_true] at h
    intro x hx
    rcases List.mem_cons.1 hx with rfl | hx
    · exact identC_plain (by simp_all) quote hq
    · exact identC_plain (by simp_all) quote hq

theorem checked_field (hc : checkModule m = .ok ()) {c : PyClassDef} (hm : c ∈ m.classes) {f : PyField} (hf : f ∈ c.fields) :
    isIdent f.target = true := by
  unfold checkModule at hc
  cases h1 : forE checkClass m.classes with
  | error e => simp only [h1, bind, Except.bind] at hc; cases hc
  | ok u =>
    have h2 := forE_mem h1 c hm
    unfold checkClass at h2
    simp only [bind, Except.bind] at h2
    split at h2
    · cases h2
    split at h2
    · cases h2
    split at h2
    case isFalse => cases h2
    split at h2
    · cases h2
    rename_i h3
    have h4 := forE_mem h3 f hf
    cases h5 : checkField f.target with
    | error e => rw [h5] at h4; cases h4
    | ok u =>
      unfold checkField at h5
      split at h5
      · cases h5
      · unfold checkIdent at h5
        split at h5
        · assumption
        · split at h5 <;> cases h5

theorem kw_plain {n : Str} (h : n ∈ kwlist) : PlainText '\'' n := by
  have : ∀ n ∈ kwlist, n.all (fun c => isLetterC c || isDigitC c) = true := by decide
  intro c hc
  have := List.all_eq_true.1 (this n h) c hc
  exact identC_plain (by simpa using this) '\'' (.inl rfl)

theorem name_plain {n : Str} (h : isIdent (pyName n) = true) : PlainText '\'' n ∧ n ≠ [] := by
  unfold pyName at h
  split at h
  · rename_i hk
    exact ⟨kw_plain hk, by intro h0; subst h0; exact absurd hk (by decide)⟩
  · exact ⟨isIdent_plain h '\'' (.inl rfl), by intro h0; subst h0; cases h⟩

theorem tagValue_kw {n : Str} {tag : Option Str} (h : tagValue (if n ∈ kwlist then some n else none) = .ok tag) :
    tag = if n ∈ kwlist then some n else none := by
  split at h
  · rename_i hk
    simp only [tagValue] at h
    rw [textValue_plain (kw_plain hk)] at h
    rw [if_pos hk]; exact (Except.ok.inj h).symm
  · rw [if_neg (by assumption)]; exact (Except.ok.inj h).symm

theorem tag_kw {f : Field} {n : Str} (hn : n ≠ []) (h1 : f.name = pyName n) (h2 : f.tagname = if n ∈ kwlist then some n else none) :
    f.tag = n := by
  unfold Field.tag
  rw [h2, h1]
  unfold pyName
  split <;> rename_i hx
  · split at hx
    · exact (Option.some.inj hx).symm
    · cases hx
  · by_cases hk : n ∈ kwlist
    · rw [if_pos hk] at hx
      cases n with
      | nil => exact absurd rfl hn
      | cons c cs => exact absurd rfl (hx c cs)
    · rw [if_neg hk]

theorem useText_required {a : DAttribute} {use : Str} (h : useText ((nonEmpty a.use).getD py"optional") = .ok use) :
    useValue use = py"required" ↔ a.use = some py"required" := by
  have key : ∀ v : Str, useText v = .ok use → (useValue use = py"required" ↔ v = py"required") := by
    intro v hv
    unfold useText at hv
    split at hv
    · rename_i h0; rw [← Except.ok.inj hv, h0]; decide
    · split at hv
      · rename_i h0; rw [← Except.ok.inj hv, h0]; decide
      · split at hv
        · rename_i h0; rw [← Except.ok.inj hv, h0]; decide
        · cases hv
  rw [key _ h]
  cases hu : a.use with
  | none => exact ⟨fun h => absurd h (by decide), nofun⟩
  | some t =>
    cases t with
    | nil => exact ⟨fun h => absurd h (by decide), fun h => by cases h⟩
    | cons c cs => simp [nonEmpty]

theorem evalArgs_name {bound : List Str} {l : List (Str × PyArg)} : ∀ {r : List (Str × ArgValue)}, evalArgs bound l = .ok r →
    ∀ x a, (x, a) ∈ l → ∃ b, (x, b) ∈ r := by
  induction l with
  | nil => intro r _ x a h; cases h
  | cons p l ih =>
    intro r h x a ha
    unfold evalArgs at h
    simp only [bind, Except.bind] at h
    cases h1 : evalArg bound p.2 with
    | error e => rw [h1] at h; cases h
    | ok v =>
      rw [h1] at h
      simp only at h
      cases h2 : evalArgs bound l with
      | error e => rw [h2] at h; cases h
      | ok vs =>
        rw [h2] at h
        rw [← Except.ok.inj h]
        rcases List.mem_cons.1 ha with rfl | ha
        · exact ⟨v, List.mem_cons_self⟩
        · obtain ⟨b, hb⟩ := ih h2 x a ha
          exact ⟨b, List.mem_cons_of_mem _ hb⟩

/-- A type in place takes no tag name. -/
theorem inPlaceUse_tag {bound : List Str} {e : PyEnv} {r : PyRef} {args : List (Str × PyArg)} {u : TypeUse} {a : PyArg}
    (h : inPlaceUse e bound r args = .ok u) : (py"tagname", a) ∉ args := by
  intro ha
  unfold inPlaceUse at h
  simp only [bind, Except.bind] at h
  split at h
  · cases h
  · split at h
    · split at h
      · cases h
      · rename_i he
        split at h
        · cases h
        · rename_i hv hc
          obtain ⟨b, hb⟩ := evalArgs_name he _ _ ha
          unfold callType at hc
          split at hc
          · cases hc
          · rename_i bt _
            split at hc
            · rename_i hall
              have := List.all_eq_true.1 hall _ hb
              simp only [decide_eq_true_eq] at this
              revert this
              have hno : ∀ k : InitKind, py"tagname" ∉ k.params := by
                intro k
                cases k with
                | integer i => show _ ∉ InitKind.params (.integer .integer); decide
                | _ => decide
              exact hno _
            · cases hc
    all_goals cases h

/-- The field of an attribute. -/
theorem attr_field {known bound : List Str} {e : PyEnv} {a : DAttribute} {pf : PyField} {p : Str × FieldObj} {f : Field}
    (h : attributeField prefixes known a = .ok pf) (hr : a.ref = none) (hs : a.name.isSome) (hi : isIdent pf.target = true)
    (ht : p.1 = pf.target) (hx : execField e bound pf = .ok p.2) (hf : FieldObj.field compile iso env p.1 p.2 = some f) :
    AttrField a f ∧ ∃ r u, pyRef prefixes known (.item none a.type a.simpleType) = .ok r ∧ typeUse e bound r = .ok u ∧
      u.ftype compile iso env = some f.type := by
  obtain ⟨n, hn⟩ := Option.isSome_iff_exists.1 hs
  obtain ⟨r, use, h1, h2, rfl⟩ := attributeField_eq h hr hn
  unfold execField at hx
  split at hx
  · cases hx
  · simp only [bind, Except.bind] at hx
    cases hu : typeUse e bound r with
    | error e => rw [hu] at hx; cases hx
    | ok u =>
      rw [hu] at hx
      simp only at hx
      cases hg : tagValue (if n ∈ kwlist then some n else none) with
      | error e => rw [hg] at hx; cases hx
      | ok tag =>
        rw [hg] at hx
        have hp2 := (Except.ok.inj hx).symm
        rw [hp2] at hf
        have heq := field_eq hf
        obtain ⟨hnm, -, -, hty⟩ := field_name hf
        have hname : f.name = pyName n := by rw [hnm, ht]; rfl
        have htn : f.tagname = if n ∈ kwlist then some n else none := by rw [heq, tagValue_kw hg]; rfl
        refine ⟨⟨⟨n, hn, hname, tag_kw (name_plain hi).2 hname htn⟩, by rw [heq]; rfl, ?_, by rw [heq]; exact ⟨rfl, rfl, rfl⟩⟩, r, u, h1, hu, hty⟩
        rw [← useText_required h2, heq]
        exact decide_eq_true_iff

/-- The fields of an element. -/
theorem elem_field {known bound : List Str} {e : PyEnv} {el : DElement} {fs : List PyField} {pf : PyField} {p : Str × FieldObj} {f : Field}
    (h : elementFields prefixes known el = .ok fs) (hm : pf ∈ fs)
    (hel : el.ref = none ∧ el.name.isSome ∧ el.type ≠ some [] ∧ ¬ (el.type.isSome ∧ el.simpleType.isSome))
    (hi : isIdent pf.target = true)
    (ht : p.1 = pf.target) (hx : execField e bound pf = .ok p.2) (hf : FieldObj.field compile iso env p.1 p.2 = some f) :
    fs = [pf] ∧ ElemField el f ∧ ∀ q, el.type = some q → ∃ r u, q ≠ [] ∧ pyRef prefixes known (.item none (some q) false) = .ok r ∧
      typeUse e bound r = .ok u ∧ u.ftype compile iso env = some f.type := by
  obtain ⟨hr, hs, h3, h4⟩ := hel
  obtain ⟨n, hn⟩ := Option.isSome_iff_exists.1 hs
  rcases elementFields_cases h hr h3 h4 hn with ⟨_, rfl⟩ | ⟨q, r, b, hq, hq0, hst, hb, hmb, hpr, rfl⟩ | ⟨q, r, hq, hq0, hst, hnm, hpr, rfl⟩ |
    ⟨st, r, args, hq, hst, rfl, hkw, _⟩
  · cases hm
  · rcases List.mem_singleton.1 hm with rfl
    refine ⟨rfl, ?_⟩
    unfold execField at hx
    split at hx
    · cases hx
    simp only [bind, Except.bind] at hx
    cases hu : typeUse e bound r with
    | error e => rw [hu] at hx; cases hx
    | ok u =>
      rw [hu] at hx
      simp only at hx
      rw [textValue_plain (name_plain hi).1] at hx
      have hp2 := (Except.ok.inj hx).symm
      rw [hp2] at hf
      have heq := field_eq hf
      obtain ⟨hnm, -, -, hty⟩ := field_name hf
      have hname : f.name = pyName n := by rw [hnm, ht]; rfl
      refine ⟨⟨⟨n, hn, hname, ?_⟩, ?_, ?_, ?_, by rw [heq]; exact ⟨rfl, rfl⟩⟩, ?_⟩
      · rw [heq]
        unfold Field.tag FieldObj.shape
        simp only
        have := (name_plain hi).2
        cases n with
        | nil => exact absurd rfl this
        | cons c cs => rfl
      · intro _ _
        rw [heq, hb]
        exact ⟨rfl, rfl, rfl, rfl⟩
      · intro _ hnot; exact absurd ⟨b, hb, hmb⟩ hnot
      · intro hh; rw [hst] at hh; cases hh
      · intro q' hq'
        rw [hq] at hq'; cases hq'
        exact ⟨r, u, hq0, hpr, hu, hty⟩
  · rcases List.mem_singleton.1 hm with rfl
    refine ⟨rfl, ?_⟩
    unfold execField at hx
    split at hx
    · cases hx
    simp only [bind, Except.bind] at hx
    cases hu : typeUse e bound r with
    | error e => rw [hu] at hx; cases hx
    | ok u =>
      rw [hu] at hx
      simp only at hx
      cases hg : tagValue (if n ∈ kwlist then some n else none) with
      | error e => rw [hg] at hx; cases hx
      | ok tag =>
        rw [hg] at hx
        simp only at hx
        split at hx
        · have hp2 := (Except.ok.inj hx).symm
          rw [hp2] at hf
          have heq := field_eq hf
          obtain ⟨hnm', -, -, hty⟩ := field_name hf
          have hname : f.name = pyName n := by rw [hnm', ht]; rfl
          have htn : f.tagname = if n ∈ kwlist then some n else none := by rw [heq, tagValue_kw hg]; rfl
          refine ⟨⟨⟨n, hn, hname, tag_kw (name_plain hi).2 hname htn⟩, ?_, ?_, ?_, by rw [heq]; exact ⟨rfl, rfl⟩⟩, ?_⟩
          · intro _ hy; exact absurd hy hnm
          · intro _ _
            rw [heq]
            refine ⟨rfl, ?_, rfl⟩
            show decide _ = true ↔ _
            rw [decide_eq_true_iff]
            cases el.minOccurs with
            | none => simp
            | some k => simp
          · intro hh; rw [hst] at hh; cases hh
          · intro q' hq'
            rw [hq] at hq'; cases hq'
            exact ⟨r, u, hq0, hpr, hu, hty⟩
        · cases hx
  · rcases List.mem_singleton.1 hm with rfl
    refine ⟨rfl, ?_⟩
    unfold execField at hx
    split at hx
    · cases hx
    simp only [bind, Except.bind] at hx
    cases hu : inPlaceUse e bound r args with
    | error e => rw [hu] at hx; cases hx
    | ok u =>
      rw [hu] at hx
      have hp2 := (Except.ok.inj hx).symm
      rw [hp2] at hf
      have heq := field_eq hf
      obtain ⟨hnm', -, -, hty⟩ := field_name hf
      have hname : f.name = pyName n := by rw [hnm', ht]; rfl
      have hnk : n ∉ kwlist := by
        intro hk
        obtain ⟨a, ha⟩ := hkw hk
        exact inPlaceUse_tag hu ha
      refine ⟨⟨⟨n, hn, hname, tag_kw (name_plain hi).2 hname ?_⟩, ?_, ?_, ?_, by rw [heq]; exact ⟨rfl, rfl⟩⟩, ?_⟩
      · rw [if_neg hnk, heq]; rfl
      · intro hh; rw [hq] at hh; cases hh
      · intro hh; rw [hq] at hh; cases hh
      · intro _; rw [heq]; exact ⟨rfl, rfl, rfl⟩
      · intro q hh; rw [hq] at hh; cases hh

theorem schemaToPy_header (h : schemaToPy prefixes digest n parent d = .ok m) :
    m.schema.targetNamespace = textOf (d.targetNamespace.or parent) ∧ m.schema.elementFormDefault = textOf d.elementFormDefault := by
  unfold schemaToPy at h
  cases h1 : reorderComplex n d.complexTypes with
  | error e => rw [h1] at h; cases h
  | ok cts =>
    rw [h1] at h
    simp only [bind, Except.bind] at h
    unfold schemaCode at h
    simp only [bind, Except.bind] at h
    cases h2 : collect (simpleClasses prefixes) [] d.simpleTypes with
    | error e => rw [h2] at h; cases h
    | ok r =>
      simp only [h2] at h
      cases h3 : mapE (attributeGroupClass prefixes r.2) d.attributeGroups with
      | error e => simp only [h3] at h; cases h
      | ok ag =>
        simp only [h3] at h
        cases h4 : mapE (groupClass prefixes r.2) d.groups with
        | error e => simp only [h4] at h; cases h
        | ok gs =>
          simp only [h4] at h
          cases h5 : collect (complexClasses prefixes) r.2 cts with
          | error e => simp only [h5] at h; cases h
          | ok cs =>
            simp only [h5] at h
            cases h6 : mapE (topClasses prefixes cs.2) d.elements with
            | error e => simp only [h6] at h; cases h
            | ok ts =>
              simp only [h6] at h
              split at h
              · cases h
              · rename_i hv
                split at hv
                · cases hv
                · rename_i sch hs
                  have hm := Except.ok.inj h
                  have hv' := Except.ok.inj hv
                  rw [← hm, ← hv']
                  simp only
                  unfold schemaStatement at hs
                  simp only [bind, Except.bind] at hs
                  split at hs
                  · cases hs
                  split at hs
                  · cases hs
                  split at hs
                  · cases hs
                  split at hs
                  · cases hs
                  split at hs
                  · cases hs
                  split at hs
                  · cases hs
                  split at hs
                  · cases hs
                  split at hs
                  · cases hs
                  rw [← Except.ok.inj hs]
                  exact ⟨rfl, rfl⟩

end

end Soapfish
