import Verif.RunLemmas
/-
The schema object in the code generated from the description of a schema that survives.
-/
namespace Soapfish

section
variable {s : GSchema} {limit : Nat} {known : List Str} {env : PyEnv}

theorem codeClasses_mem {l : List GComplex} : ∀ {known : List Str} {d : PyClassDef}, d ∈ codeClasses known l →
    ∃ c ∈ l, ∃ known', d = codeClass known' c.name c := by
  induction l with
  | nil => intro _ _ h; cases h
  | cons c l ih =>
    intro known d h
    rcases List.mem_cons.1 h with rfl | h
    · exact ⟨c, List.mem_cons_self .., known, rfl⟩
    · obtain ⟨x, hx, k, hk⟩ := ih h
      exact ⟨x, List.mem_cons_of_mem _ hx, k, hk⟩

theorem check_codeModule (hs : SchemaSurvives s limit) (digest : Str → Str) : checkModule (codeModule digest s) = .ok () := by
  have hc : ∀ c ∈ allClasses s, ∀ known, checkClass (codeClass known c.name c) = .ok () := by
    intro c hc known
    obtain ⟨h1, h2, _⟩ := allClasses_survive hs hc
    exact check_class known h1 (h2.bodyOk hs)
  have h1 : forE checkClass (codeModule digest s).classes = .ok () := by
    refine forE_all fun d hd => ?_
    rcases List.mem_append.1 hd with hd | hd
    · rcases List.mem_append.1 hd with hd | hd
      · obtain ⟨st, hst, rfl⟩ := List.mem_map.1 hd
        exact check_simple (hs.schemaOk.simple st hst).1 (hs.simple st hst)
      · obtain ⟨c, hm, k, rfl⟩ := codeClasses_mem hd
        exact hc c (List.mem_append_left _ hm) k
    · obtain ⟨c, hm, rfl⟩ := List.mem_map.1 hd
      exact hc c (List.mem_append_right _ hm) _
  have h2 : forE checkIdent (codeModule digest s).schema.simpleTypes = .ok () := by
    refine forE_all fun n hn => ?_
    exact (hs.names n (mem_moduleNames.2 (.inl hn))).check
  have h3 : forE checkIdent (codeModule digest s).schema.complexTypes = .ok () := by
    refine forE_all fun n hn => ?_
    exact (hs.names n (mem_moduleNames.2 (.inr (.inl hn)))).check
  have h4 : forE checkTop (codeModule digest s).schema.elements = .ok () := by
    refine forE_all fun d hd => ?_
    obtain ⟨t, ht, rfl⟩ := List.mem_map.1 hd
    have h := hs.tops t ht
    unfold checkTop codeTop
    cases hty : t.type with
    | ofClass c =>
      have h3 := h.2.2
      rw [hty] at h3
      exact check_refOf (TypeSurvives.referable hs h3) _
    | inst o =>
      have h3 := h.2.2
      rw [hty] at h3
      cases o with
      | none => exact h3.elim
      | some c =>
        have : ({ c with name := capName t.name } : GComplex) ∈ ownTypes s.elements := mem_ownTypes.2 ⟨t, ht, c, hty, rfl⟩
        exact (allClasses_survive hs (List.mem_append_right _ this)).1.check
  unfold checkModule
  rw [h1]
  show (forE checkIdent (codeModule digest s).schema.simpleTypes >>= _) = _
  rw [h2]
  show (forE checkIdent (codeModule digest s).schema.complexTypes >>= _) = _
  rw [h3]
  exact h4

/-! ### Types of descriptors -/

/-- The final bindings. -/
structure FinalEnv (s : GSchema) (env : PyEnv) : Prop where
  simple : ∀ st ∈ s.simpleTypes, env.get st.name = some (.simple (simpleObj st))
  classes : HasClasses s env (allClasses s)

theorem common_accept {b : Builtin} (h : CommonBuiltin b) : b ≠ .list ∧ b ≠ .anyType := by
  constructor <;> (rintro rfl; revert h; unfold CommonBuiltin; simp)

/-- What the type of a descriptor evaluates to. -/
theorem target_use (hf : FinalEnv s env) (hs : SchemaSurvives s limit) {t : TypeCls} {u : TypeUse} (h : UseFor s t u) :
    (∃ o, u.target env = .ok (.simple o) ∧ o.noAccept = false ∧ o.cls = t ∧ ∀ n, t ≠ .complex n) ∨
    (∃ c ∈ s.complexTypes, u.target env = .ok (.complex c.name) ∧ t = .complex c.name) := by
  cases t with
  | builtin b =>
    obtain ⟨hc, rfl⟩ := h
    refine .inl ⟨_, rfl, ?_, rfl, by simp⟩
    have := common_accept hc
    simp [SimpleObj.noAccept, TypeCls.root, this]
  | simpleType => exact h.elim
  | derived n b =>
    obtain ⟨st, hst, rfl, rfl, rfl⟩ := h
    refine .inl ⟨_, rfl, ?_, rfl, by simp⟩
    obtain ⟨b, hb, hc⟩ := (hs.simple st hst).base
    have := common_accept hc
    simp [SimpleObj.noAccept, simpleObj, TypeCls.root, hb, this]
  | complex n =>
    obtain ⟨⟨c, hc, rfl⟩, hu⟩ := h
    refine .inr ⟨c, hc, ?_, rfl⟩
    rcases hu with rfl | rfl
    · rfl
    · obtain ⟨o, ho, hobj⟩ := hf.classes c (List.mem_append_left _ hc)
      show (match env.get c.name with
        | some o => (.ok o.use : Except Exn TypeUse)
        | none => .error .attributeError) = _
      rw [ho]
      show Except.ok (TypeUse.complex o.name) = _
      rw [hobj.name]

theorem obj_use (hf : FinalEnv s env) (hs : SchemaSurvives s limit) {t : TypeCls} {u : TypeUse} (h : UseFor s t u) :
    ∃ o, u.obj env = .ok o ∧ o.cls = t := by
  unfold TypeUse.obj
  rcases target_use hf hs h with ⟨o, h1, _, h2, _⟩ | ⟨c, hc, h1, rfl⟩
  · rw [h1]
    refine ⟨_, rfl, ?_⟩
    rw [← h2]
    unfold instanceOf
    cases (Option.map Builtin.initKind o.cls.root).getD .other <;> rfl
  · rw [h1]
    exact ⟨_, rfl, rfl⟩

theorem isClass_use {t : TypeCls} {u : TypeUse} (h : UseFor s t u) : u.isClass = true := by
  cases t with
  | builtin b => obtain ⟨_, rfl⟩ := h; rfl
  | simpleType => exact h.elim
  | derived n b => obtain ⟨st, _, _, _, rfl⟩ := h; rfl
  | complex n => obtain ⟨_, rfl | rfl⟩ := h <;> rfl

theorem all2_right {α β : Type} {R : α → β → Prop} {as : List α} {bs : List β} (h : All2 R as bs) {b : β} (hb : b ∈ bs) :
    ∃ a ∈ as, R a b := by
  induction h with
  | nil => cases hb
  | cons h _ ih =>
    rcases List.mem_cons.1 hb with rfl | hb
    · exact ⟨_, List.mem_cons_self .., h⟩
    · obtain ⟨a, ha, hr⟩ := ih hb
      exact ⟨a, List.mem_cons_of_mem _ ha, hr⟩

theorem all2_map {α β γ : Type} {R : α → β → Prop} {f : α → γ} {g : β → γ} {l : List α} {r : List β} (h : All2 R l r)
    (hR : ∀ a b, R a b → g b = f a) : r.map g = l.map f := by
  induction h with
  | nil => rfl
  | cons h _ ih => rw [List.map_cons, List.map_cons, ih, hR _ _ h]

/-! ### Instances -/

theorem grounded_all {rank : Str → Nat} (hg : Grounded s rank limit) {c : GComplex} (hc : c ∈ allClasses s) {e : GElem}
    (he : e ∈ c.elements) (hm : ¬ e.Many) {n : Str} (hn : e.type.cls = .complex n) : rank n < rank c.name := by
  rcases List.mem_append.1 hc with hc | hc
  · exact hg.2.1 c hc e he hm n hn
  · obtain ⟨t, ht, d, hd, rfl⟩ := mem_ownTypes.1 hc
    exact hg.2.2 t ht d hd e he hm n hn

theorem looks_accept {t t' : TypeObj} (h : InPlaceSurvives t) (hl : LooksLike t t') :
    ¬ (t'.cls.root = some .list ∨ t'.cls.root = some .anyType) := by
  obtain ⟨b, hb, hc⟩ := h.common
  rw [hl.cls, hb]
  have := common_accept hc
  simp [TypeCls.root, this]

theorem not_many_of_join {e : GElem} (h : e.maxOccurs.join = none) : ¬ e.Many := by
  rintro ⟨b, hb, _⟩
  rw [hb] at h
  cases h

theorem instantiate_ok (hf : FinalEnv s env) (hs : SchemaSurvives s limit) {rank : Str → Nat} (hg : Grounded s rank limit) :
    ∀ (d : Nat) (c : GComplex), c ∈ allClasses s → rank c.name < d → instantiate env d c.name = .ok () := by
  intro d
  induction d with
  | zero => intro c _ h; exact absurd h (Nat.not_lt_zero _)
  | succ d ih =>
    intro c hc hr
    obtain ⟨o, ho, hobj⟩ := hf.classes c hc
    unfold instantiate
    rw [ho]
    refine forX_all fun p hp => ?_
    obtain ⟨e, he, hfe⟩ := all2_right hobj.fields hp
    cases hfe with
    | @single u m _ hj hu _ =>
      unfold initField
      rcases target_use hf hs hu with ⟨o', h1, h2, _, _⟩ | ⟨c', hc', h1, h2⟩
      · show (u.target env >>= _) = _
        rw [h1]
        show (if o'.noAccept = true then _ else _) = _
        rw [h2]; rfl
      · show (u.target env >>= _) = _
        rw [h1]
        have hlt := grounded_all hg hc he (not_many_of_join hj) h2
        exact ih c' (List.mem_append_left _ hc') (by omega)
    | many => rfl
    | @inPlace t _ hin _ _ _ _ hl _ =>
      exact if_neg (looks_accept hin hl)

theorem evaluateUse_ok (hf : FinalEnv s env) (hs : SchemaSurvives s limit) {t : TypeCls} {u : TypeUse} (h : UseFor s t u) :
    evaluateUse env limit u = .ok () := by
  obtain ⟨rank, hg⟩ := hs.grounded
  unfold evaluateUse
  rcases target_use hf hs h with ⟨o', h1, h2, _, _⟩ | ⟨c', hc', h1, h2⟩
  · rw [h1]; rfl
  · rw [h1]
    exact instantiate_ok hf hs hg limit c' (List.mem_append_left _ hc') (hg.1 _)

theorem forceClass_ok (hf : FinalEnv s env) (hs : SchemaSurvives s limit) {c : GComplex} (hc : c ∈ s.complexTypes) :
    forceClass env limit c.name = .ok () := by
  obtain ⟨o, ho, hobj⟩ := hf.classes c (List.mem_append_left _ hc)
  unfold forceClass
  rw [ho]
  refine forX_all fun p hp => ?_
  obtain ⟨e, he, hfe⟩ := all2_right hobj.fields hp
  cases hfe with
  | single _ _ hu _ => exact evaluateUse_ok hf hs hu
  | many _ _ _ hu => exact evaluateUse_ok hf hs hu
  | inPlace => rfl

/-! ### What the generator sees -/

/-- An element declaration and what has become of it. -/
structure ElemBack (e e' : GElem) : Prop where
  name : e'.name = pyName e.written
  written : e'.written = e.written
  passed : e'.passedClass = e.passedClass
  cls : e'.type.cls = e.type.cls
  looks : e.passedClass = false → LooksLike e.type e'.type
  minOccurs : e'.minOccurs = e.minOccurs
  maxOccurs : e'.maxOccurs.join = e.maxOccurs.join
  nillable : e'.nillable = e.nillable

theorem FieldName.ne_nil {n : Str} (h : FieldName n) : n ≠ [] := by
  obtain ⟨⟨c, cs, rfl, _⟩, _⟩ := h
  exact List.cons_ne_nil _ _

theorem viewElem_ok (hf : FinalEnv s env) (hs : SchemaSurvives s limit) {e : GElem} (he : ElemSurvives s e)
    {p : Str × FieldObj} (h : FieldFor s e p) : viewAttr env p = .ok [] ∧
    ∃ e', viewElem env p = .ok [e'] ∧ ElemBack e e' := by
  have hne := he.1.ne_nil
  cases h with
  | @single u m hp hj hu hm =>
    refine ⟨rfl, ?_⟩
    obtain ⟨o, ho, hcls⟩ := obj_use hf hs hu
    unfold viewElem
    show ∃ e', (u.obj env >>= _) = _ ∧ _
    rw [ho]
    refine ⟨_, rfl, rfl, ?_, ?_, hcls, ?_, hm.symm, ?_, rfl⟩
    · unfold GElem.written pyName
      dsimp only
      by_cases hk : e.written ∈ kwlist
      · have h2 := hne
        unfold GElem.written at hk h2
        simp [hk, h2]
      · unfold GElem.written at hk
        simp [hk]
    · rw [hp]; exact isClass_use hu
    · intro h; rw [hp] at h; cases h
    · exact hj.symm
  | @many u b hp hm hj hu =>
    refine ⟨rfl, ?_⟩
    obtain ⟨o, ho, hcls⟩ := obj_use hf hs hu
    unfold viewElem
    show ∃ e', (u.obj env >>= _) = _ ∧ _
    rw [ho]
    refine ⟨_, rfl, rfl, ?_, ?_, hcls, ?_, rfl, ?_, rfl⟩
    · have h2 := hne
      unfold GElem.written at h2
      unfold GElem.written
      simp [h2]
    · rw [hp]; exact isClass_use hu
    · intro h; rw [hp] at h; cases h
    · rw [hj]
  | @inPlace t hp hin hj hm hn hk hl _ =>
    refine ⟨rfl, _, rfl, rfl, ?_, hp.symm, hl.cls, fun _ => hl, hm.symm, hj.symm, hn.symm⟩
    unfold GElem.written at hk
    unfold GElem.written pyName
    simp [hk]

/-- A complex type and what has become of it. -/
structure ComplexBack (c c' : GComplex) : Prop where
  attributes : c'.attributes = []
  indicator : c'.indicator = c.indicator
  elements : All2 ElemBack c.elements c'.elements

theorem viewFields_ok (hf : FinalEnv s env) (hs : SchemaSurvives s limit) {es : List GElem} {os : List (Str × FieldObj)}
    (he : ∀ e ∈ es, ElemSurvives s e) (h : All2 (FieldFor s) es os) :
    (∃ as, mapE (viewAttr env) os = .ok as ∧ as.flatten = []) ∧
    ∃ vs, mapE (viewElem env) os = .ok vs ∧ All2 ElemBack es vs.flatten := by
  induction h with
  | nil => exact ⟨⟨[], rfl, rfl⟩, [], rfl, .nil⟩
  | cons h _ ih =>
    obtain ⟨⟨as, ha, ha'⟩, vs, hv, hv'⟩ := ih fun e hx => he e (List.mem_cons_of_mem _ hx)
    obtain ⟨h1, e', h2, h3⟩ := viewElem_ok hf hs (he _ (List.mem_cons_self ..)) h
    refine ⟨⟨[] :: as, ?_, by simpa using ha'⟩, [e'] :: vs, ?_, ?_⟩
    · unfold mapE
      rw [h1]
      show (mapE (viewAttr env) _ >>= _) = _
      rw [ha]; rfl
    · unfold mapE
      rw [h2]
      show (mapE (viewElem env) _ >>= _) = _
      rw [hv]; rfl
    · exact .cons h3 hv'

theorem viewComplex_ok (hf : FinalEnv s env) (hs : SchemaSurvives s limit) {c : GComplex} (hc : ComplexSurvives s c)
    {o : ComplexObj} (ho : ObjFor s c o) : ∃ c', viewComplex env o = .ok c' ∧ c'.name = o.name ∧ ComplexBack c c' := by
  obtain ⟨⟨as, ha, ha'⟩, vs, hv, hv'⟩ := viewFields_ok hf hs hc.elements ho.fields
  unfold viewComplex
  rw [ha]
  show ∃ c', (mapE (viewElem env) o.fields >>= _) = _ ∧ _
  rw [hv]
  exact ⟨_, rfl, rfl, ha', ho.indicator.symm, hv'⟩

/-- A simple type and what has become of it. -/
structure SimpleBack (st st' : GSimple) : Prop where
  name : st'.name = st.name
  base : st'.base = st.base
  enumeration : st'.enumeration.getD [] = st.enumeration.getD []
  facets : simpleFacets st' = simpleFacets st
  digits : st'.fractionDigits = none

theorem viewSimple_ok (hf : FinalEnv s env) (hs : SchemaSurvives s limit) {st : GSimple} (hst : st ∈ s.simpleTypes) :
    ∃ st', viewSimpleName env st.name = .ok st' ∧ SimpleBack st st' := by
  obtain ⟨_, hd, he, hp⟩ := hs.simple st hst
  unfold viewSimpleName lookupName
  rw [hf.simple st hst]
  refine ⟨_, rfl, rfl, rfl, ?_, ?_, rfl⟩
  · show ((codeSimple st).enumeration.map (·.map Atom.str)).getD [] = _
    unfold codeSimple
    show (Option.map (fun l : List Str => l.map Atom.str) (if st.enumeration.getD [] = [] then none else some _)).getD [] = _
    split
    · rename_i h; rw [h]; rfl
    · show (List.map _ (List.map _ _)) = _
      rw [List.map_map]
      refine (List.map_congr_left (g := id) fun a ha => ?_).trans (List.map_id _)
      obtain ⟨t, rfl, _⟩ := he a ha
      rfl
  · have h1 : shownFacet py"fractionDigits" st.fractionDigits = [] := by
      cases h : st.fractionDigits with
      | none => rfl
      | some a => exact if_pos (hd a h)
    have h2 : simpleFacets st = shownFacet py"pattern" (st.pattern.map .str) := by
      unfold simpleFacets
      rw [h1]
    rw [h2]
    show shownFacet py"pattern" ((facetOf (codeSimple st).facets py"pattern").map .str) = _
    unfold codeSimple
    show shownFacet py"pattern" ((facetOf ((facetText (st.pattern.map .str)).toList.map fun s => (py"pattern", s))
      py"pattern").map .str) = _
    rw [facetText_seen]
    cases hq : st.pattern with
    | none => rfl
    | some q =>
      by_cases hbl : Blank (.str q)
      · rw [show (some q).map Atom.str = some (.str q) from rfl, seen_blank hbl]
        exact (if_pos hbl).symm
      · rw [show (some q).map Atom.str = some (.str q) from rfl, seen_some hbl]
        rfl

/-! ### Top-level elements -/

/-- What a top-level element has become. -/
structure TopBack (t t' : GTop) : Prop where
  name : t'.name = t.name
  group : t'.substitutionGroup = t.substitutionGroup.map groupRef
  type : (∃ c, t.type = .ofClass c ∧ t'.type = .ofClass c) ∨
    ∃ c c', t.type = .inst (some c) ∧ t'.type = .inst (some c') ∧ c'.name = capName t.name ∧ ComplexBack c c'

theorem plain_groupRef {g : Str} (h : PlainText '"' g) : PlainText '"' (groupRef g) := by
  unfold groupRef
  split
  · exact h
  · intro c hc
    rcases List.mem_append.1 hc with hc | hc
    · simp only [List.mem_cons, List.not_mem_nil, or_false] at hc
      rcases hc with rfl | rfl | rfl | rfl <;> decide
    · exact h c hc

/-- The entry of a top-level element. -/
def TopFor (limit : Nat) (env : PyEnv) (t : GTop) (o : TopObj) : Prop :=
  o.name = t.name ∧ evaluateTop env limit o = .ok () ∧ ∃ t', viewTop env o = .ok t' ∧ TopBack t t'

theorem execTop_ok (hf : FinalEnv s env) (hs : SchemaSurvives s limit)
    (hk : Knows s known env) {t : GTop} (ht : t ∈ s.elements) :
    ∃ o, execTop env limit (codeTop known t) = .ok o ∧ TopFor limit env t o := by
  obtain ⟨rank, hg⟩ := hs.grounded
  obtain ⟨h1, h2, h3⟩ := hs.tops t ht
  have hgroup : (match (codeTop known t).substitutionGroup with
    | none => (.ok none : Except ImportErr (Option Str))
    | some s => do .ok (some (← literal (textValue '"' s)))) = .ok (t.substitutionGroup.map groupRef) := by
    show (match t.substitutionGroup.map groupRef with
      | none => (.ok none : Except ImportErr (Option Str))
      | some s => do .ok (some (← literal (textValue '"' s)))) = _
    cases hgr : t.substitutionGroup with
    | none => rfl
    | some g =>
      show (literal (textValue '"' (groupRef g)) >>= _) = _
      rw [textValue_plain (plain_groupRef (h2 g hgr))]; rfl
  unfold execTop
  rw [show (codeTop known t).name = t.name from rfl, textValue_plain h1]
  cases hty : t.type with
  | ofClass c =>
    rw [hty] at h3
    obtain ⟨u, hu, hu'⟩ := typeUse_ref hk (bound := []) (fun _ h => absurd h List.not_mem_nil) h3
    have htype : (codeTop known t).type = .inl (refOf known c) := by unfold codeTop; rw [hty]
    rw [htype]
    show ∃ o, ((typeUse env [] (refOf known c) >>= _) >>= _) = _ ∧ _
    rw [hu]
    show ∃ o, ((match (codeTop known t).substitutionGroup with
      | none => (.ok none : Except ImportErr (Option Str))
      | some s => do .ok (some (← literal (textValue '"' s)))) >>= _) = _ ∧ _
    rw [hgroup]
    refine ⟨_, rfl, rfl, evaluateUse_ok hf hs hu', ?_⟩
    obtain ⟨o, ho, hcls⟩ := obj_use hf hs hu'
    unfold viewTop
    show ∃ t', (((raisedE (u.obj env)) >>= _) >>= _) = _ ∧ _
    rw [ho]
    exact ⟨_, rfl, rfl, rfl, .inl ⟨c, hty, congrArg GType.ofClass hcls⟩⟩
  | inst q =>
    rw [hty] at h3
    cases q with
    | none => exact h3.elim
    | some c =>
      have hm : ({ c with name := capName t.name } : GComplex) ∈ allClasses s :=
        List.mem_append_right _ (mem_ownTypes.2 ⟨t, ht, c, hty, rfl⟩)
      obtain ⟨o, ho, hobj⟩ := hf.classes _ hm
      have hinst := instantiate_ok hf hs hg limit _ hm (hg.1 _)
      have htype : (codeTop known t).type = .inr (capName t.name) := by unfold codeTop; rw [hty]
      have hlook : lookupName env (capName t.name) = .ok (.complex o) := by
        unfold lookupName
        rw [show env.get (capName t.name) = _ from ho]
      have hinst' : instantiate env limit o.name = .ok () := by rw [hobj.name]; exact hinst
      rw [htype]
      show ∃ o, ((lookupName env (capName t.name) >>= _) >>= _) = _ ∧ _
      rw [hlook]
      show ∃ o', ((raisedE (instantiate env limit o.name) >>= _) >>= _) = _ ∧ _
      rw [hinst']
      show ∃ o, ((match (codeTop known t).substitutionGroup with
        | none => (.ok none : Except ImportErr (Option Str))
        | some s => do .ok (some (← literal (textValue '"' s)))) >>= _) = _ ∧ _
      rw [hgroup]
      refine ⟨_, rfl, rfl, rfl, ?_⟩
      obtain ⟨c', hv, hname, hb⟩ := viewComplex_ok hf hs (complexSurvives_rename (capName t.name) h3) hobj
      unfold viewTop
      show ∃ t', (((raisedE (viewComplex env o)) >>= _) >>= _) = _ ∧ _
      rw [hv]
      exact ⟨_, rfl, rfl, rfl, .inr ⟨c, c', hty, rfl, hname.trans hobj.name, hb.attributes, hb.indicator, hb.elements⟩⟩

theorem mapI_all2 {α β γ : Type} {f : β → Except ImportErr γ} {g : α → β} {R : α → γ → Prop} {l : List α}
    (h : ∀ a ∈ l, ∃ c, f (g a) = .ok c ∧ R a c) : ∃ r, mapI f (l.map g) = .ok r ∧ All2 R l r := by
  induction l with
  | nil => exact ⟨[], rfl, .nil⟩
  | cons a l ih =>
    obtain ⟨c, hc, hr⟩ := h a (List.mem_cons_self ..)
    obtain ⟨r, hr', hall⟩ := ih fun x hx => h x (List.mem_cons_of_mem _ hx)
    refine ⟨c :: r, ?_, .cons hr hall⟩
    show (f (g a) >>= _) = _
    rw [hc]
    show (mapI f (l.map g) >>= _) = _
    rw [hr']; rfl

theorem mapI_chain {α β γ : Type} {f : β → Except ImportErr γ} {P : α → β → Prop} {R : α → γ → Prop} {l : List α}
    {r : List β} (hl : All2 P l r) (h : ∀ a b, P a b → ∃ c, f b = .ok c ∧ R a c) :
    ∃ q, mapI f r = .ok q ∧ All2 R l q := by
  induction hl with
  | nil => exact ⟨[], rfl, .nil⟩
  | cons hp _ ih =>
    obtain ⟨c, hc, hr⟩ := h _ _ hp
    obtain ⟨q, hq, hall⟩ := ih
    refine ⟨c :: q, ?_, .cons hr hall⟩
    show (f _ >>= _) = _
    rw [hc]
    show (mapI f _ >>= _) = _
    rw [hq]; rfl

theorem mapI_lookup {ns : List Str} (h : ∀ n ∈ ns, ∃ o, env.get n = some o) : ∃ r, mapI (lookupName env) ns = .ok r := by
  obtain ⟨r, hr, _⟩ := mapI_all2 (f := lookupName env) (g := id) (R := fun _ _ => True) (l := ns) fun n hn => by
    obtain ⟨o, ho⟩ := h n hn
    refine ⟨o, ?_, trivial⟩
    unfold lookupName
    rw [show env.get (id n) = _ from ho]
  rw [List.map_id] at hr
  exact ⟨r, hr⟩

theorem dictTops_nodup (l : List TopObj) (h : (l.map (·.name)).Nodup) : dictTops l = l := by
  suffices ∀ (l acc : List TopObj), ((acc ++ l).map (·.name)).Nodup → l.foldl (fun acc t =>
      if acc.any (fun u => u.name = t.name) then acc.map (fun u => if u.name = t.name then t else u)
      else acc ++ [t]) acc = acc ++ l from this l [] h
  intro l
  induction l with
  | nil => intro acc _; simp
  | cons t l ih =>
    intro acc h
    rw [List.foldl_cons, if_neg, ih]
    · simp
    · simpa using h
    · intro ha
      obtain ⟨u, hu, he⟩ := List.any_eq_true.1 ha
      rw [List.map_append, List.map_cons] at h
      exact (List.nodup_append.1 h).2.2 _ (List.mem_map.2 ⟨u, hu, rfl⟩) _ (List.mem_cons_self ..) (of_decide_eq_true he)

theorem plain_form (q : Bool) : literal (textValue '\'' (formText q)) = .ok (formText q) := by
  cases q <;> rfl

/-- A schema and what has become of it. -/
structure SchemaBack (s s' : GSchema) : Prop where
  targetNamespace : s'.targetNamespace = s.targetNamespace
  qualified : s'.qualified = s.qualified
  imports : s'.imports = []
  includes : s'.includes = []
  simpleTypes : All2 SimpleBack s.simpleTypes s'.simpleTypes
  complexTypes : All2 (fun c c' => c'.name = c.name ∧ ComplexBack c c') s.complexTypes s'.complexTypes
  elements : All2 TopBack s.elements s'.elements

theorem execSchema_ok (hs : SchemaSurvives s limit) (digest : Str → Str)
    (hk : Knows s (s.simpleTypes.map (·.name) ++ s.complexTypes.map (·.name)) env) (hh : HasClasses s env (allClasses s)) :
    ∃ s', execSchema [] env limit (codeModule digest s).schema = .ok s' ∧ SchemaBack s s' := by
  have hf : FinalEnv s env := ⟨fun st hst => (hk.simple st hst).2, hh⟩
  obtain ⟨r1, hr1⟩ := mapI_lookup (env := env) (ns := s.simpleTypes.map (·.name)) (by
    intro n hn
    obtain ⟨st, hst, rfl⟩ := List.mem_map.1 hn
    exact ⟨_, hf.simple st hst⟩)
  obtain ⟨r2, hr2⟩ := mapI_lookup (env := env) (ns := s.complexTypes.map (·.name)) (by
    intro n hn
    obtain ⟨c, hc, rfl⟩ := List.mem_map.1 hn
    obtain ⟨o, ho, _⟩ := hf.classes c (List.mem_append_left _ hc)
    exact ⟨_, ho⟩)
  obtain ⟨tops, ht, htops⟩ := mapI_all2 (f := execTop env limit)
    (g := codeTop (s.simpleTypes.map (·.name) ++ s.complexTypes.map (·.name))) (R := TopFor limit env)
    (l := s.elements) fun t ht => execTop_ok hf hs hk ht
  have hnames : tops.map (·.name) = s.elements.map (·.name) := all2_map htops fun _ _ h => h.1
  have hdict : dictTops tops = tops := dictTops_nodup tops (by rw [hnames]; exact hs.topNames)
  have hforce : forX (forceClass env limit) (s.complexTypes.map (·.name)) = .ok () := forX_all fun n hn => by
    obtain ⟨c, hc, rfl⟩ := List.mem_map.1 hn
    exact forceClass_ok hf hs hc
  have heval : forX (evaluateTop env limit) tops = .ok () := forX_all fun o ho => by
    obtain ⟨t, _, h⟩ := all2_right htops ho
    exact h.2.1
  obtain ⟨v1, hv1, hb1⟩ := mapI_all2 (f := viewSimpleName env) (g := GSimple.name) (R := SimpleBack) (l := s.simpleTypes)
    fun st hst => viewSimple_ok hf hs hst
  obtain ⟨v2, hv2, hb2⟩ := mapI_all2 (f := viewComplexName env) (g := GComplex.name)
    (R := fun c c' => c'.name = c.name ∧ ComplexBack c c') (l := s.complexTypes) fun c hc => by
      obtain ⟨o, ho, hobj⟩ := hf.classes c (List.mem_append_left _ hc)
      obtain ⟨c', h1, h2, h3⟩ := viewComplex_ok hf hs (hs.complex c hc) hobj
      refine ⟨c', ?_, h2.trans hobj.name, h3⟩
      unfold viewComplexName lookupName
      rw [ho]
      show raisedE (viewComplex env o) = _
      rw [h1]; rfl
  obtain ⟨v3, hv3, hb3⟩ := mapI_chain (f := viewTop env) (R := TopBack) htops fun t o h => h.2.2
  unfold execSchema
  show ∃ s', (literal (textValue '\'' s.targetNamespace) >>= _) = _ ∧ _
  rw [textValue_plain hs.nspace]
  show ∃ s', (literal (textValue '\'' (formText s.qualified)) >>= _) = _ ∧ _
  rw [plain_form]
  show ∃ s', (mapI (lookupName env) (s.simpleTypes.map (·.name)) >>= _) = _ ∧ _
  rw [hr1]
  show ∃ s', (mapI (lookupName env) (s.complexTypes.map (·.name)) >>= _) = _ ∧ _
  rw [hr2]
  show ∃ s', (mapI (execTop env limit)
    (s.elements.map (codeTop (s.simpleTypes.map (·.name) ++ s.complexTypes.map (·.name)))) >>= _) = _ ∧ _
  rw [ht]
  show ∃ s', (raisedE (forX (forceClass env limit) (s.complexTypes.map (·.name))) >>= _) = _ ∧ _
  rw [hforce]
  show ∃ s', (raisedE (forX (evaluateTop env limit) (dictTops tops)) >>= _) = _ ∧ _
  rw [hdict, heval]
  show ∃ s', (mapI (viewSimpleName env) (s.simpleTypes.map (·.name)) >>= _) = _ ∧ _
  rw [hv1]
  show ∃ s', (mapI (viewComplexName env) (s.complexTypes.map (·.name)) >>= _) = _ ∧ _
  rw [hv2]
  show ∃ s', (mapI (viewTop env) tops >>= _) = _ ∧ _
  rw [hv3]
  refine ⟨_, rfl, rfl, ?_, rfl, rfl, hb1, hb2, hb3⟩
  show decide (formText s.qualified = py"qualified") = s.qualified
  cases s.qualified <;> rfl

theorem execModule_ok (hs : SchemaSurvives s limit) (digest : Str → Str) :
    ∃ env s', execModule [] [] limit (codeModule digest s) = .ok (env, s') ∧ SchemaBack s s' := by
  obtain ⟨env, h1, h2, h3⟩ := exec_module_classes hs digest
  obtain ⟨s', h4, h5⟩ := execSchema_ok hs digest h2 h3
  refine ⟨env, s', ?_, h5⟩
  unfold execModule
  rw [check_codeModule hs digest]
  show (execClasses [] (codeModule digest s).classes >>= _) = _
  rw [h1]
  show (execSchema [] env limit (codeModule digest s).schema >>= _) = _
  rw [h4]; rfl

end

/-! ### The document stays the same -/

theorem ElemBack.doc {e e' : GElem} (h : ElemBack e e') : elementDoc e' = elementDoc e := by
  unfold elementDoc
  rw [h.written, h.passed, h.cls, h.minOccurs, h.maxOccurs, h.nillable]
  cases hp : e.passedClass with
  | true => rfl
  | false =>
    have hl := h.looks hp
    have : inPlaceDoc e'.type = inPlaceDoc e.type := by
      unfold inPlaceDoc
      rw [hl.cls, hl.enums, hl.facets]
    rw [this]

theorem ComplexBack.doc {c c' : GComplex} (h : ComplexBack c c') (named : Bool) (hn : named = true → c'.name = c.name) :
    complexDoc c' named = complexDoc c named := by
  unfold complexDoc
  rw [h.indicator, all2_map h.elements fun _ _ h => h.doc]
  cases named with
  | true => rw [hn rfl]
  | false => rfl

theorem SimpleBack.doc {a b : GSimple} (h : SimpleBack a b) : simpleDoc b = simpleDoc a := by
  unfold simpleDoc
  rw [h.name, h.base, h.enumeration, h.facets]

theorem groupRef_idem (g : Str) : groupRef (groupRef g) = groupRef g := by
  have : py"sns:" <+: groupRef g := by
    unfold groupRef
    split
    · assumption
    · exact List.prefix_append _ _
  exact if_pos this

theorem TopBack.doc {a b : GTop} (h : TopBack a b) : topDoc b = topDoc a := by
  have hg : b.substitutionGroup.map groupRef = a.substitutionGroup.map groupRef := by
    rw [h.group, Option.map_map]
    congr 1
    funext g
    exact groupRef_idem g
  unfold topDoc
  rcases h.type with ⟨c, h1, h2⟩ | ⟨c, c', h1, h2, _, hc⟩
  · rw [h1, h2]
    show xsdNode _ _ _ = xsdNode _ _ _
    rw [h.name, hg]
  · rw [h1, h2]
    show xsdNode _ _ _ = xsdNode _ _ _
    rw [h.name, hg, hc.doc false (by simp)]

theorem SchemaBack.doc {s s' : GSchema} (h : SchemaBack s s') (ha : s.imports = [] ∧ s.includes = []) :
    document s' = document s := by
  unfold document
  rw [h.targetNamespace, h.qualified, h.imports, h.includes, ha.1, ha.2, all2_map h.simpleTypes fun _ _ h => h.doc,
    all2_map h.complexTypes fun _ _ h => h.2.doc true fun _ => h.1, all2_map h.elements fun _ _ h => h.doc]

/-! ### It can be generated again -/

theorem ElemBack.builds {e e' : GElem} (h : ElemBack e e') (hb : ElemBuilds e) : ElemBuilds e' := by
  refine ⟨h.cls ▸ hb.1, fun hp => ?_⟩
  have hp' : e.passedClass = false := h.passed ▸ hp
  rw [(h.looks hp').enums]
  exact hb.2 hp'

theorem ElemBack.writes {e e' : GElem} (h : ElemBack e e') (hb : ElemWrites e) : ElemWrites e' := by
  refine ⟨h.written ▸ hb.1, h.cls ▸ hb.2.1, fun hp => ?_⟩
  have hp' : e.passedClass = false := h.passed ▸ hp
  rw [(h.looks hp').enums, (h.looks hp').facets]
  exact hb.2.2 hp'

theorem ComplexBack.builds {c c' : GComplex} (h : ComplexBack c c') {named : Bool}
    (hn : named = true → c'.name = c.name) (hb : ComplexBuilds c named) : ComplexBuilds c' named := by
  refine ⟨fun ht => hn ht ▸ hb.1 ht, ?_, ?_, ?_⟩
  · rw [h.attributes]; exact fun _ h => absurd h List.not_mem_nil
  · intro e' he'
    obtain ⟨e, he, hr⟩ := all2_right h.elements he'
    exact hr.builds (hb.2.2.1 e he)
  · intro hi
    have hnil := hb.2.2.2 (h.indicator ▸ hi)
    have hel := h.elements
    rw [hnil] at hel
    generalize c'.elements = es at hel
    cases hel
    rfl

theorem ComplexBack.writes {c c' : GComplex} (h : ComplexBack c c') {named : Bool}
    (hn : named = true → c'.name = c.name) (hb : ComplexWrites c named) : ComplexWrites c' named := by
  refine ⟨h.attributes, fun ht => hn ht ▸ hb.2.1 ht, ?_⟩
  intro e' he'
  obtain ⟨e, he, hr⟩ := all2_right h.elements he'
  exact hr.writes (hb.2.2 e he)

theorem xmlOk_groupRef {g : Str} (h : XmlOk g) : XmlOk (groupRef g) := by
  unfold groupRef
  split
  · exact h
  · intro c hc
    rcases List.mem_append.1 hc with hc | hc
    · simp only [List.mem_cons, List.not_mem_nil, or_false] at hc
      rcases hc with rfl | rfl | rfl | rfl <;> decide
    · exact h c hc

theorem SchemaBack.buildable {s s' : GSchema} (h : SchemaBack s s') (hb : Buildable s) : Buildable s' := by
  refine ⟨?_, ?_, ?_⟩
  · intro st' hst'
    obtain ⟨st, hst, hr⟩ := all2_right h.simpleTypes hst'
    have := hb.1 st hst
    exact ⟨hr.name ▸ this.1, hr.base ▸ this.2.1, hr.enumeration ▸ this.2.2.1, by rw [hr.digits]; simp⟩
  · intro c' hc'
    obtain ⟨c, hc, hr⟩ := all2_right h.complexTypes hc'
    exact hr.2.builds (fun _ => hr.1) (hb.2.1 c hc)
  · intro t' ht'
    obtain ⟨t, ht, hr⟩ := all2_right h.elements ht'
    have := hb.2.2 t ht
    unfold TopBuilds at this ⊢
    rcases hr.type with ⟨c, h1, h2⟩ | ⟨c, c', h1, h2, _, hc⟩
    · rw [h1] at this; rw [h2]; exact this
    · rw [h1] at this; rw [h2]; exact hc.builds (by simp) this

theorem SchemaBack.writable {s s' : GSchema} (h : SchemaBack s s') (hb : Writable s) : Writable s' := by
  obtain ⟨h1, _, _, h4, h5, h6⟩ := hb
  refine ⟨h.targetNamespace ▸ h1, ?_, ?_, ?_, ?_, ?_⟩
  · rw [h.imports]; exact fun _ h => absurd h List.not_mem_nil
  · rw [h.includes]; exact fun _ h => absurd h List.not_mem_nil
  · intro st' hst'
    obtain ⟨st, hst, hr⟩ := all2_right h.simpleTypes hst'
    have := h4 st hst
    exact ⟨hr.name ▸ this.1, hr.base ▸ this.2.1, hr.enumeration ▸ this.2.2.1, hr.facets ▸ this.2.2.2⟩
  · intro c' hc'
    obtain ⟨c, hc, hr⟩ := all2_right h.complexTypes hc'
    exact hr.2.writes (fun _ => hr.1) (h5 c hc)
  · intro t' ht'
    obtain ⟨t, ht, hr⟩ := all2_right h.elements ht'
    obtain ⟨g1, g2, g3⟩ := h6 t ht
    refine ⟨hr.name ▸ g1, ?_, ?_⟩
    · intro g hg
      rw [hr.group] at hg
      obtain ⟨g', hg', rfl⟩ := Option.map_eq_some_iff.1 hg
      exact xmlOk_groupRef (g2 g' hg')
    · rcases hr.type with ⟨c, h1, h2⟩ | ⟨c, c', h1, h2, _, hc⟩
      · rw [h1] at g3; rw [h2]; exact g3
      · rw [h1] at g3; rw [h2]; exact hc.writes (by simp) g3

end Soapfish
