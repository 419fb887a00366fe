import Verif.RunTexts
/-
Importing the code generated from the description of a schema that survives.
-/
namespace Soapfish

/-! ### Syntax -/

theorem identChar_ok {c : Char} (h : IdentChar c) : (isLetterC c || isDigitC c) = true := by
  unfold isLetterC isDigitC
  rcases h with h | h | h | h
  · simp [h]
  · simp [h]
  · simp [h]
  · simp [h]

theorem identAll {cs : Str} (h : ∀ d ∈ cs, IdentChar d) : cs.all (fun d => isLetterC d || isDigitC d) = true :=
  List.all_eq_true.2 fun d hd => identChar_ok (h d hd)

theorem ClassName.not_keyword {n : Str} (h : ClassName n) : n ∉ kwlist := by
  intro hk
  obtain ⟨⟨c, cs, rfl, hc, _⟩, hx⟩ := h
  have key : ∀ k ∈ kwlist, k ∈ [py"None", py"True", py"False"] ∨ ∃ c cs, k = c :: cs ∧ ¬ ('A' ≤ c ∧ c ≤ 'Z') := by
    intro k hk
    simp only [kwlist, List.mem_cons, List.not_mem_nil, or_false] at hk
    rcases hk with rfl | rfl | rfl | hk
    · exact .inl (by decide)
    · exact .inl (by decide)
    · exact .inl (by decide)
    · refine .inr ?_
      rcases hk with rfl | rfl | rfl | rfl | rfl | rfl | rfl | rfl | rfl | rfl | rfl | rfl | rfl | rfl | rfl | rfl | rfl |
        rfl | rfl | rfl | rfl | rfl | rfl | rfl | rfl | rfl | rfl | rfl | rfl | rfl | rfl | rfl <;>
        exact ⟨_, _, rfl, by decide⟩
  rcases key _ hk with h | ⟨d, ds, he, hd⟩
  · exact hx h
  · injection he with he _
    subst he
    exact hd hc

theorem ClassName.ident {n : Str} (h : ClassName n) : isIdent n = true := by
  have hk := h.not_keyword
  obtain ⟨⟨c, cs, rfl, hc, hd⟩, _⟩ := h
  have hl : isLetterC c = true := by unfold isLetterC; simp [hc]
  show (isLetterC c && cs.all (fun d => isLetterC d || isDigitC d) && !decide ((c :: cs) ∈ kwlist)) = true
  rw [hl, identAll hd]
  simp [hk]

theorem ClassName.check {n : Str} (h : ClassName n) : checkIdent n = .ok () := by
  unfold checkIdent
  rw [if_pos h.ident]

theorem FieldName.pyOk {n : Str} (h : FieldName n) :
    checkField (pyName n) = .ok () ∧ checkIdent (pyName n) = .ok () ∧
    pyName n ∉ [py"xsd", py"classmethod", py"create", py"cls"] := by
  by_cases hk : n ∈ kwlist
  · have hp : pyName n = '_' :: n := by simp [pyName, hk]
    rw [hp]
    have key : kwlist.all (fun k => isIdent ('_' :: k) &&
        !decide (('_' :: k) ∈ reservedNames ++ [py"xsd", py"classmethod", py"create", py"cls"]) &&
        !startsWith py"__" ('_' :: k)) = true := by decide +kernel
    have := List.all_eq_true.1 key n hk
    simp only [Bool.and_eq_true, Bool.not_eq_true', decide_eq_false_iff_not, List.mem_append, not_or] at this
    obtain ⟨⟨h1, h2, h3⟩, h4⟩ := this
    have hi : checkIdent ('_' :: n) = .ok () := by unfold checkIdent; rw [if_pos h1]
    refine ⟨?_, hi, h3⟩
    unfold checkField
    rw [if_neg (by rw [h4]; simp [h2])]
    exact hi
  · have hp : pyName n = n := by simp [pyName, hk]
    rw [hp]
    obtain ⟨⟨c, cs, rfl, hc, hnd, hd⟩, hu, hr⟩ := h
    have hl : isLetterC c = true := by
      have := identChar_ok hc
      have hf : isDigitC c = false := by unfold isDigitC; simpa using hnd
      rw [hf] at this
      simpa using this
    have h1 : isIdent (c :: cs) = true := by
      show (isLetterC c && cs.all (fun d => isLetterC d || isDigitC d) && !decide ((c :: cs) ∈ kwlist)) = true
      rw [hl, identAll hd]
      simp [hk]
    have hi : checkIdent (c :: cs) = .ok () := by unfold checkIdent; rw [if_pos h1]
    refine ⟨?_, hi, ?_⟩
    · unfold checkField
      rw [if_neg]
      · exact hi
      · rintro (hm | hm)
        · exact hr (by
            simp only [reservedNames, List.mem_cons, List.not_mem_nil, or_false] at hm ⊢
            rcases hm with h | h | h | h | h | h | h | h | h | h | h | h | h | h <;> simp [h])
        · exact hu (List.isPrefixOf_iff_prefix.1 hm)
    · intro hm
      exact hr (by
        simp only [List.mem_cons, List.not_mem_nil, or_false] at hm ⊢
        rcases hm with h | h | h | h <;> simp [h])

theorem check_common (b : Builtin) (h : CommonBuiltin b) : checkIdent b.clsName = .ok () := by
  cases b with
  | int k => cases k <;> rfl
  | _ => rfl

theorem check_refOf {t : TypeCls} (h : Referable t) (known : List Str) : checkRef (refOf known t) = .ok () := by
  have hn : ∀ n, ClassName n → checkRef (if n ∈ known then .name n else .path n) = .ok () := by
    intro n hn
    split
    · exact hn.check
    · show (if isIdent n = true then _ else _) = _
      rw [if_pos hn.ident]
  cases t with
  | builtin b => exact check_common b h
  | simpleType => exact h.elim
  | derived n b => exact hn n h.1
  | complex n => exact hn n h

theorem forE_all {α : Type} {f : α → Except ImportErr Unit} {l : List α} (h : ∀ a ∈ l, f a = .ok ()) : forE f l = .ok () := by
  induction l with
  | nil => rfl
  | cons a l ih =>
    unfold forE
    rw [h a (List.mem_cons_self ..)]
    exact ih fun b hb => h b (List.mem_cons_of_mem _ hb)

theorem forX_all {α : Type} {f : α → Except Exn Unit} {l : List α} (h : ∀ a ∈ l, f a = .ok ()) : forX f l = .ok () := by
  induction l with
  | nil => rfl
  | cons a l ih =>
    unfold forX
    rw [h a (List.mem_cons_self ..)]
    exact ih fun b hb => h b (List.mem_cons_of_mem _ hb)

theorem codeField_target (known : List Str) (e : GElem) : (codeField known e).target = pyName e.written := by
  unfold codeField
  split
  · split <;> rfl
  · rfl

theorem codeField_type (known : List Str) (e : GElem) : (codeField known e).type = refOf known e.type.cls := by
  unfold codeField
  split
  · split <;> rfl
  · rfl

/-- The elements of a class can be fields. -/
structure BodyOk (c : GComplex) : Prop where
  code : CodeOk c
  fields : ∀ e ∈ c.elements, FieldName e.written
  distinct : (c.elements.map fun e => pyName e.written).Nodup

theorem createParams_sub (es : List GElem) :
    (createParams (es.map elementOf)).Sublist (es.map fun e => pyName e.written) := by
  unfold createParams
  have : (es.map elementOf).map (fun e => fixKeywordO (itemName e.ref e.name)) = es.map fun e => pyName e.written := by
    rw [List.map_map]; rfl
  rw [← this]
  exact List.Sublist.map _ List.filter_sublist

theorem check_class (known : List Str) {c : GComplex} {name : Str} (hn : ClassName name) (h : BodyOk c) :
    checkClass (codeClass known name c) = .ok () := by
  have hsub := createParams_sub c.elements
  have hcls : py"cls" ∉ c.elements.map fun e => pyName e.written := by
    intro hm
    obtain ⟨e, he, hx⟩ := List.mem_map.1 hm
    exact (h.fields e he).pyOk.2.2 (by rw [hx]; decide)
  have hfields : forE (fun f : PyField => do
      checkField f.target
      checkRef f.type) (c.elements.map (codeField known)) = .ok () := by
    refine forE_all fun f hf => ?_
    obtain ⟨e, he, rfl⟩ := List.mem_map.1 hf
    rw [codeField_target, codeField_type, (h.fields e he).pyOk.1]
    exact check_refOf (h.code.2.2 e he).1 known
  have hparams : ∀ l : List Str, l.Sublist (c.elements.map fun e => pyName e.written) →
      forE checkIdent l = .ok () ∧ checkParams l = .ok () := by
    intro l hl
    refine ⟨forE_all fun n hx => ?_, ?_⟩
    · obtain ⟨e, he, rfl⟩ := List.mem_map.1 (hl.subset hx)
      exact (h.fields e he).pyOk.2.1
    · unfold checkParams
      rw [if_pos]
      exact List.nodup_cons.2 ⟨fun hm => hcls (hl.subset hm), h.distinct.sublist hl⟩
  have hcreate : forE checkIdent ((codeClass known name c).create.getD []) = .ok () ∧
      checkParams ((codeClass known name c).create.getD []) = .ok () := by
    unfold codeClass
    show forE checkIdent ((if c.indicator = some .sequence then some _ else none).getD []) = _ ∧ _
    split
    · exact hparams _ hsub
    · exact hparams [] (List.nil_sublist _)
  unfold checkClass
  show (checkIdent name >>= _) = _
  rw [hn.check]
  show (forE _ (c.elements.map (codeField known)) >>= _) = _
  rw [hfields]
  show (forE checkIdent ((codeClass known name c).create.getD []) >>= _) = _
  rw [hcreate.1]
  exact hcreate.2

theorem check_simple {st : GSimple} (hn : ClassName st.name) (h : SimpleSurvives st) :
    checkClass (codeSimple st) = .ok () := by
  obtain ⟨⟨b, hb, hc⟩, _, _, _⟩ := h
  unfold checkClass
  show (checkIdent st.name >>= _) = _
  rw [hn.check]
  show (checkIdent st.base.clsName >>= _) = _
  rw [show st.base.clsName = b.clsName by rw [hb]; rfl, check_common b hc]
  rfl

/-! ### What a schema that survives offers -/

section
variable {s : GSchema} {limit : Nat}

theorem TypeSurvives.referable (hs : SchemaSurvives s limit) {t : TypeCls} (h : TypeSurvives s t) : Referable t := by
  cases t with
  | builtin b => exact h
  | simpleType => exact h
  | derived n b =>
    obtain ⟨st, hst, rfl, rfl⟩ := h
    refine ⟨hs.names _ ?_, ?_⟩
    · unfold moduleNames
      simp only [List.mem_append, List.mem_map]
      exact .inl (.inl ⟨st, hst, rfl⟩)
    · obtain ⟨b, hb, _⟩ := (hs.simple st hst).base
      rw [hb]; simp
  | complex n =>
    obtain ⟨c, hc, rfl⟩ := h
    refine hs.names _ ?_
    unfold moduleNames
    simp only [List.mem_append, List.mem_map]
    exact .inl (.inr ⟨c, hc, rfl⟩)

theorem ElemSurvives.code (hs : SchemaSurvives s limit) {e : GElem} (h : ElemSurvives s e) :
    Referable e.type.cls ∧ (e.passedClass = false → e.written ∉ kwlist) := by
  rcases h.2 with ⟨hp, ht, _⟩ | ⟨_, ht, _, _, _, hk⟩
  · exact ⟨ht.referable hs, by rw [hp]; simp⟩
  · refine ⟨?_, fun _ => hk⟩
    obtain ⟨b, hb, hc⟩ := ht.common
    rw [hb]; exact hc

theorem ComplexSurvives.bodyOk (hs : SchemaSurvives s limit) {c : GComplex} (h : ComplexSurvives s c) : BodyOk c where
  code := ⟨h.attributes, h.indicator, fun e he => (h.elements e he).code hs⟩
  fields := fun e he => (h.elements e he).1
  distinct := h.distinct

theorem moduleNames_eq : moduleNames s = s.simpleTypes.map (·.name) ++ s.complexTypes.map (·.name) ++
    (ownTypes s.elements).map (·.name) := by
  unfold moduleNames
  congr 1
  unfold ownTypes
  rw [List.map_flatMap]
  congr 1
  funext t
  generalize t.type = ty
  cases ty with
  | ofClass _ => rfl
  | inst o => cases o <;> rfl

theorem mem_moduleNames {n : Str} : n ∈ moduleNames s ↔ n ∈ s.simpleTypes.map (·.name) ∨ n ∈ s.complexTypes.map (·.name) ∨
    n ∈ (ownTypes s.elements).map (·.name) := by
  rw [moduleNames_eq]
  simp only [List.mem_append, or_assoc]

theorem mem_ownTypes {l : List GTop} {c : GComplex} : c ∈ ownTypes l ↔
    ∃ t ∈ l, ∃ d, t.type = .inst (some d) ∧ c = { d with name := capName t.name } := by
  unfold ownTypes
  rw [List.mem_flatMap]
  constructor
  · rintro ⟨t, ht, hc⟩
    split at hc
    · rename_i d hd
      exact ⟨t, ht, d, hd, List.mem_singleton.1 hc⟩
    · cases hc
  · rintro ⟨t, ht, d, hd, rfl⟩
    refine ⟨t, ht, ?_⟩
    rw [hd]
    exact List.mem_singleton.2 rfl

theorem complexSurvives_rename {c : GComplex} (n : Str) (h : ComplexSurvives s c) :
    ComplexSurvives s { c with name := n } := ⟨h.attributes, h.indicator, h.elements, h.distinct⟩

/-- All classes of the module for complex types, those for top-level elements at the end. -/
def allClasses (s : GSchema) : List GComplex := s.complexTypes ++ ownTypes s.elements

theorem allClasses_survive (hs : SchemaSurvives s limit) {c : GComplex} (h : c ∈ allClasses s) :
    ClassName c.name ∧ ComplexSurvives s c ∧ (∀ e ∈ c.elements, pyName e.written ∉ moduleNames s) ∧
    c.name ∉ s.simpleTypes.map (·.name) := by
  have hnd := hs.distinct
  rw [moduleNames_eq, List.append_assoc] at hnd
  have hdis : ∀ n, n ∈ s.complexTypes.map (·.name) ++ (ownTypes s.elements).map (·.name) → n ∉ s.simpleTypes.map (·.name) :=
    fun n hn hm => (List.nodup_append.1 hnd).2.2 n hm n hn rfl
  rcases List.mem_append.1 h with h | h
  · refine ⟨hs.names _ (mem_moduleNames.2 (.inr (.inl (List.mem_map.2 ⟨c, h, rfl⟩)))), hs.complex c h, hs.fields c h, ?_⟩
    exact hdis _ (List.mem_append_left _ (List.mem_map.2 ⟨c, h, rfl⟩))
  · have hm : c.name ∈ (ownTypes s.elements).map (·.name) := List.mem_map.2 ⟨c, h, rfl⟩
    refine ⟨hs.names _ (mem_moduleNames.2 (.inr (.inr hm))), ?_, ?_, hdis _ (List.mem_append_right _ hm)⟩
    · obtain ⟨t, ht, d, hd, rfl⟩ := mem_ownTypes.1 h
      have := (hs.tops t ht).2.2
      rw [hd] at this
      exact complexSurvives_rename _ this
    · obtain ⟨t, ht, d, hd, rfl⟩ := mem_ownTypes.1 h
      exact hs.topFields t ht d hd

theorem allClasses_nodup (hs : SchemaSurvives s limit) : ((allClasses s).map (·.name)).Nodup := by
  have hnd := hs.distinct
  rw [moduleNames_eq, List.append_assoc] at hnd
  unfold allClasses
  rw [List.map_append]
  exact (List.nodup_append.1 hnd).2.1

theorem SchemaSurvives.schemaOk (hs : SchemaSurvives s limit) : SchemaOk s where
  alone := hs.alone
  simple := fun st hst => ⟨hs.names _ (mem_moduleNames.2 (.inl (List.mem_map.2 ⟨st, hst, rfl⟩))), hs.simple st hst⟩
  complex := fun c hc => ⟨(allClasses_survive hs (List.mem_append_left _ hc)).1, ((hs.complex c hc).bodyOk hs).code⟩
  distinct := by
    have := allClasses_nodup hs
    unfold allClasses at this
    rw [List.map_append] at this
    exact (List.nodup_append.1 this).1
  tops := by
    intro t ht
    have h := hs.tops t ht
    unfold TopOk
    cases hty : t.type with
    | ofClass c =>
      have h3 := h.2.2
      rw [hty] at h3
      exact TypeSurvives.referable hs h3
    | inst o =>
      have h3 := h.2.2
      rw [hty] at h3
      cases o with
      | none => exact h3.elim
      | some c =>
        refine ⟨?_, (ComplexSurvives.bodyOk hs h3).code⟩
        have : ({ c with name := capName t.name } : GComplex) ∈ ownTypes s.elements := mem_ownTypes.2 ⟨t, ht, c, hty, rfl⟩
        exact (allClasses_survive hs (List.mem_append_right _ this)).1.ne_nil

end

/-! ### Class statements -/

theorem get_cons (n m : Str) (o : ClassObj) (env : PyEnv) :
    PyEnv.get ((n, o) :: env) m = if n = m then some o else PyEnv.get env m := by
  unfold PyEnv.get
  rw [List.find?_cons]
  by_cases h : n = m
  · simp [h]
  · simp [h]

/-- The class object of a simple type. -/
def simpleObj (st : GSimple) : SimpleObj where
  cls := .derived st.name st.base
  enumeration := (codeSimple st).enumeration
  facets := (codeSimple st).facets

/-- What a descriptor has for a type. -/
def UseFor (s : GSchema) (t : TypeCls) (u : TypeUse) : Prop :=
  match t with
  | .builtin b => CommonBuiltin b ∧ u = .simple { cls := .builtin b }
  | .derived n b => ∃ st ∈ s.simpleTypes, n = st.name ∧ b = st.base ∧ u = .simple (simpleObj st)
  | .complex n => (∃ c ∈ s.complexTypes, n = c.name) ∧ (u = .complex n ∨ u = .path n)
  | .simpleType => False

/-- The descriptor of an element. -/
inductive FieldFor (s : GSchema) (e : GElem) : Str × FieldObj → Prop where
  | single {u m} : e.passedClass = true → e.maxOccurs.join = none → UseFor s e.type.cls u → e.minOccurs = some m →
      FieldFor s e (pyName e.written, .element u (if e.written ∈ kwlist then some e.written else none) m e.nillable)
  | many {u b} : e.passedClass = true → e.Many → e.maxOccurs = some (some b) → UseFor s e.type.cls u →
      FieldFor s e (pyName e.written, .list u e.written e.minOccurs b e.nillable)
  | inPlace {t} : e.passedClass = false → InPlaceSurvives e.type → e.maxOccurs.join = none → e.minOccurs = some 1 →
      e.nillable = false → e.written ∉ kwlist → LooksLike e.type t →
      callType { cls := e.type.cls } (valsOf e.type) = .ok t →
      FieldFor s e (pyName e.written, .element (.inst t) none 1 false)

theorem FieldFor.name {s : GSchema} {e : GElem} {p : Str × FieldObj} (h : FieldFor s e p) : p.1 = pyName e.written := by
  cases h <;> rfl

/-- The class object of a complex type. -/
structure ObjFor (s : GSchema) (c : GComplex) (o : ComplexObj) : Prop where
  name : o.name = c.name
  indicator : c.indicator = some o.indicator
  fields : All2 (FieldFor s) c.elements o.fields
  group : o.group = false

/-- The names known to the templates are bound. -/
structure Knows (s : GSchema) (known : List Str) (env : PyEnv) : Prop where
  simple : ∀ st ∈ s.simpleTypes, st.name ∈ known ∧ env.get st.name = some (.simple (simpleObj st))
  complex : ∀ c ∈ s.complexTypes, c.name ∈ known → ∃ o, env.get c.name = some (.complex o) ∧ o.name = c.name

/-- The classes have been created. -/
def HasClasses (s : GSchema) (env : PyEnv) (l : List GComplex) : Prop :=
  ∀ c ∈ l, ∃ o, env.get c.name = some (.complex o) ∧ ObjFor s c o

theorem xsdAttr_builtin (b : Builtin) : xsdAttr b.clsName = .ok (.simple { cls := .builtin b }) := by
  cases b with
  | int k => cases k <;> rfl
  | _ => rfl

section
variable {s : GSchema} {limit : Nat} {known : List Str} {env : PyEnv}

theorem typeUse_ref (hk : Knows s known env) {bound : List Str} (hb : ∀ n ∈ bound, n ∉ moduleNames s) {t : TypeCls}
    (ht : TypeSurvives s t) : ∃ u, typeUse env bound (refOf known t) = .ok u ∧ UseFor s t u := by
  cases t with
  | builtin b =>
    refine ⟨_, ?_, ht, rfl⟩
    show (xsdAttr b.clsName >>= _) = _
    rw [xsdAttr_builtin]; rfl
  | simpleType => exact ht.elim
  | derived n b =>
    obtain ⟨st, hst, rfl, rfl⟩ := ht
    obtain ⟨h1, h2⟩ := hk.simple st hst
    have hn : st.name ∉ bound := fun hm => hb _ hm (mem_moduleNames.2 (.inl (List.mem_map.2 ⟨st, hst, rfl⟩)))
    refine ⟨_, ?_, st, hst, rfl, rfl, rfl⟩
    show typeUse env bound (if st.name ∈ known then .name st.name else .path st.name) = _
    rw [if_pos h1]
    show (if st.name ∈ bound then _ else _) = _
    rw [if_neg hn, h2]; rfl
  | complex n =>
    obtain ⟨c, hc, rfl⟩ := ht
    have hn : c.name ∉ bound := fun hm => hb _ hm (mem_moduleNames.2 (.inr (.inl (List.mem_map.2 ⟨c, hc, rfl⟩))))
    by_cases hm : c.name ∈ known
    · obtain ⟨o, h1, h2⟩ := hk.complex c hc hm
      refine ⟨_, ?_, ⟨c, hc, rfl⟩, .inl rfl⟩
      show typeUse env bound (if c.name ∈ known then .name c.name else .path c.name) = _
      rw [if_pos hm]
      show (if c.name ∈ bound then _ else _) = _
      rw [if_neg hn, h1]
      show Except.ok (TypeUse.complex o.name) = _
      rw [h2]
    · refine ⟨_, ?_, ⟨c, hc, rfl⟩, .inr rfl⟩
      show typeUse env bound (if c.name ∈ known then .name c.name else .path c.name) = _
      rw [if_neg hm]; rfl

theorem plain_ident {n : Str} (h : FieldName n) : PlainText '\'' n := by
  obtain ⟨⟨c, cs, rfl, hc, _, hd⟩, _⟩ := h
  have key : ∀ d, IdentChar d → d ≠ '\'' ∧ d ≠ '\\' ∧ d ≠ '\n' ∧ d ≠ '\r' ∧ d ≠ Char.ofNat 0 := by
    intro d hd
    refine ⟨?_, ?_, ?_, ?_, ?_⟩ <;> (rintro rfl; revert hd; unfold IdentChar; decide)
  intro d hd'
  rcases List.mem_cons.1 hd' with rfl | h
  · exact key _ hc
  · exact key _ (hd d h)

theorem manyOccurs_many {b : Bound} (h : ManyBound b) : manyOccurs (some b) = some b := by
  cases b with
  | unbounded => rfl
  | int n =>
    exact if_pos h

theorem execField_code (hk : Knows s known env) {bound : List Str} (hx : py"xsd" ∉ bound)
    (hb : ∀ n ∈ bound, n ∉ moduleNames s) {e : GElem} (he : ElemSurvives s e) :
    ∃ o, execField env bound (codeField known e) = .ok o ∧ FieldFor s e (pyName e.written, o) := by
  obtain ⟨hf, he⟩ := he
  unfold execField
  rw [if_neg hx]
  rcases he with ⟨hp, ht, hs | hm⟩ | ⟨hp, ht, h1, h2, h3, h4⟩
  · obtain ⟨u, hu, hu'⟩ := typeUse_ref hk hb ht
    obtain ⟨m, hmo, hm⟩ : ∃ m, e.minOccurs = some m ∧ (m = 0 ∨ m = 1) := by
      rcases hs.2 with h | h
      · exact ⟨0, h, .inl rfl⟩
      · exact ⟨1, h, .inr rfl⟩
    refine ⟨_, ?_, .single hp hs.1 hu' hmo⟩
    have hc : codeField known e = .element (pyName e.written) (refOf known e.type.cls)
        (if e.written ∈ kwlist then some e.written else none) e.minOccurs e.nillable := by
      unfold codeField
      rw [hp, hs.1]; rfl
    have htag : tagValue (if e.written ∈ kwlist then some e.written else none) =
        .ok (if e.written ∈ kwlist then some e.written else none) := by
      split
      · show (literal (textValue '\'' e.written) >>= _) = _
        rw [textValue_plain (plain_ident hf)]; rfl
      · rfl
    rw [hc, hmo]
    show (typeUse env bound (refOf known e.type.cls) >>= _) = _
    rw [hu]
    show (tagValue (if e.written ∈ kwlist then some e.written else none) >>= _) = _
    rw [htag]
    exact if_pos hm
  · obtain ⟨u, hu, hu'⟩ := typeUse_ref hk hb ht
    have hmany := hm
    obtain ⟨b, hmo, hb⟩ := hm
    refine ⟨_, ?_, .many hp hmany hmo hu'⟩
    have hc : codeField known e = .list (pyName e.written) (refOf known e.type.cls) e.written e.minOccurs b e.nillable := by
      unfold codeField
      rw [hp, hmo, show (some (some b)).join = some b from rfl, manyOccurs_many hb]; rfl
    rw [hc]
    show (typeUse env bound (refOf known e.type.cls) >>= _) = _
    rw [hu]
    show (literal (textValue '\'' e.written) >>= _) = _
    rw [textValue_plain (plain_ident hf)]; rfl
  · obtain ⟨t, ha, hc, hl⟩ := ht.call (bound := bound)
    obtain ⟨b, hbc, hcb⟩ := ht.common
    refine ⟨_, ?_, .inPlace hp ht h1 h2 h3 h4 hl hc⟩
    have hc' : codeField known e = .inPlace (pyName e.written) (refOf known e.type.cls) (argsOf e.type) := by
      unfold codeField
      rw [hp]; rfl
    rw [hc']
    have hu : typeUse env bound (refOf known e.type.cls) = .ok (.simple { cls := e.type.cls }) := by
      rw [hbc]
      show (xsdAttr b.clsName >>= _) = _
      rw [xsdAttr_builtin]; rfl
    have hin : inPlaceUse env bound (refOf known e.type.cls) (argsOf e.type) = .ok (.inst t) := by
      simp only [inPlaceUse, hu, ha, hc, bind, Except.bind]
    show (inPlaceUse env bound (refOf known e.type.cls) (argsOf e.type) >>= _) = _
    rw [hin]; rfl

theorem execFields_code (hk : Knows s known env) :
    ∀ (es : List GElem) (done : List (Str × FieldObj)), (∀ e ∈ es, ElemSurvives s e) →
      (∀ e ∈ es, pyName e.written ∉ moduleNames s) →
      (done.map (·.1) ++ es.map fun e => pyName e.written).Nodup → py"xsd" ∉ done.map (·.1) →
      (∀ n ∈ done.map (·.1), n ∉ moduleNames s) →
      ∃ os, execFields env done (es.map (codeField known)) = .ok (done ++ os) ∧ All2 (FieldFor s) es os := by
  intro es
  induction es with
  | nil => intro done _ _ _ _ _; exact ⟨[], by simp [execFields], .nil⟩
  | cons e es ih =>
    intro done he hm hnd hx hb
    obtain ⟨o, ho, hfo⟩ := execField_code hk hx hb (he e (List.mem_cons_self ..))
    have hdone : done.filter (fun p => p.1 ≠ (codeField known e).target) = done := by
      rw [List.filter_eq_self]
      intro p hp
      rw [codeField_target]
      have : p.1 ≠ pyName e.written := fun h =>
        (List.nodup_append.1 hnd).2.2 p.1 (List.mem_map.2 ⟨p, hp, rfl⟩) _ (List.mem_cons_self ..) h
      simp [this]
    have hmap : (done ++ [(pyName e.written, o)]).map (·.1) = done.map (·.1) ++ [pyName e.written] := by simp
    obtain ⟨os, hos, hall⟩ := ih (done ++ [(pyName e.written, o)]) (fun x hx => he x (List.mem_cons_of_mem _ hx))
      (fun x hx => hm x (List.mem_cons_of_mem _ hx)) (by rw [hmap]; simpa using hnd)
      (by
        rw [hmap]
        intro h
        rcases List.mem_append.1 h with h | h
        · exact hx h
        · rw [List.mem_singleton] at h
          exact (he e (List.mem_cons_self ..)).1.pyOk.2.2 (by rw [← h]; decide))
      (by
        rw [hmap]
        intro n h
        rcases List.mem_append.1 h with h | h
        · exact hb n h
        · rw [List.mem_singleton] at h
          exact h ▸ hm e (List.mem_cons_self ..))
    refine ⟨(pyName e.written, o) :: os, ?_, .cons hfo hall⟩
    show (execField env (done.map (·.1)) (codeField known e) >>= _) = _
    rw [ho]
    show execFields env (done.filter (fun p => p.1 ≠ (codeField known e).target) ++ [((codeField known e).target, o)])
      (es.map (codeField known)) = _
    rw [hdone, codeField_target, hos]
    simp

theorem all2_names {es : List GElem} {os : List (Str × FieldObj)} (h : All2 (FieldFor s) es os) :
    os.map (·.1) = es.map fun e => pyName e.written := by
  induction h with
  | nil => rfl
  | cons h _ ih => rw [List.map_cons, List.map_cons, ih, h.name]

theorem execClass_code (hk : Knows s known env) {c : GComplex} (hc : ComplexSurvives s c)
    (hm : ∀ e ∈ c.elements, pyName e.written ∉ moduleNames s) :
    ∃ o, execClass env (codeClass known c.name c) = .ok ((c.name, .complex o) :: env) ∧ ObjFor s c o := by
  obtain ⟨os, hos, hall⟩ := execFields_code hk c.elements [] hc.elements hm (by simpa using hc.distinct) (by simp)
    (fun _ h => absurd h List.not_mem_nil)
  obtain ⟨i, hi⟩ : ∃ i, c.indicator = some i := by
    cases h : c.indicator with
    | none => exact absurd h hc.indicator
    | some i => exact ⟨i, rfl⟩
  have hnot : ∀ n ∈ [py"classmethod", py"create"], ∀ p ∈ os, p.1 ≠ n := by
    intro n hn p hp he
    have : p.1 ∈ c.elements.map fun e => pyName e.written := all2_names hall ▸ List.mem_map.2 ⟨p, hp, rfl⟩
    obtain ⟨e, hel, hep⟩ := List.mem_map.1 this
    refine (hc.elements e hel).1.pyOk.2.2 ?_
    rw [hep, he]
    simp only [List.mem_cons, List.not_mem_nil, or_false] at hn ⊢
    rcases hn with rfl | rfl <;> simp
  have hcreate : ∀ q, execCreate os q = .ok os := by
    intro q
    cases q with
    | none => rfl
    | some l =>
      unfold execCreate
      rw [if_neg, List.filter_eq_self.2]
      · intro p hp
        have := hnot py"create" (by decide) p hp
        simp [this]
      · intro h
        obtain ⟨p, hp, hh⟩ := List.any_eq_true.1 h
        exact hnot py"classmethod" (by decide) p hp (of_decide_eq_true hh)
  refine ⟨{ name := c.name, indicator := c.indicator.getD .sequence, fields := os, bases := [c.name] }, ?_, ⟨rfl, by rw [hi]; rfl, hall, rfl⟩⟩
  unfold execClass
  show (execFields env [] (c.elements.map (codeField known)) >>= _) = _
  rw [hos]
  show (execCreate ([] ++ os) _ >>= _) = _
  rw [List.nil_append, hcreate]
  show Except.ok _ = _
  unfold inheritFields
  rfl

/-- The class of a simple type. -/
theorem execClass_simple (env : PyEnv) {st : GSimple} (h : SimpleSurvives st) :
    execClass env (codeSimple st) = .ok ((st.name, .simple (simpleObj st)) :: env) := by
  obtain ⟨⟨b, hb, hc⟩, _, he, hp⟩ := h
  have h1 : evalEnumeration (codeSimple st).enumeration = .ok (codeSimple st).enumeration := by
    unfold codeSimple
    show evalEnumeration (if st.enumeration.getD [] = [] then none else some _) = .ok (if _ then _ else _)
    split
    · rfl
    · show (evalTexts _ >>= _) = _
      rw [evalTexts_plain]
      · rfl
      · intro t ht
        obtain ⟨a, ha, rfl⟩ := List.mem_map.1 ht
        obtain ⟨t, rfl, hpl⟩ := he a ha
        exact hpl
  have h2 : evalFacets (codeSimple st).facets = .ok (codeSimple st).facets := by
    unfold codeSimple
    show evalFacets ((facetText (st.pattern.map .str)).toList.map fun s => (py"pattern", s)) = .ok _
    rw [facetText_seen]
    cases hq : st.pattern with
    | none => rfl
    | some q =>
      by_cases hbl : Blank (.str q)
      · rw [show (some q).map Atom.str = some (.str q) from rfl, seen_blank hbl]; rfl
      · rw [show (some q).map Atom.str = some (.str q) from rfl, seen_some hbl]
        show (literal (rawTextValue q) >>= _) = _
        rw [rawTextValue_raw (hp q hq)]; rfl
  unfold execClass
  show (xsdAttr st.base.clsName >>= _) = _
  rw [show st.base.clsName = b.clsName by rw [hb]; rfl, xsdAttr_builtin]
  show (evalEnumeration (codeSimple st).enumeration >>= _) = _
  rw [h1]
  show (evalFacets (codeSimple st).facets >>= _) = _
  rw [h2]
  show Except.ok _ = _
  unfold simpleObj
  rw [hb]
  simp only [Option.or_none, List.append_nil]
  rfl

theorem execClasses_append (a b : List PyClassDef) (env : PyEnv) :
    execClasses env (a ++ b) = (execClasses env a >>= fun e => execClasses e b) := by
  induction a generalizing env with
  | nil => rfl
  | cons c a ih =>
    show (execClass env c >>= fun e => execClasses e (a ++ b)) = ((execClass env c >>= fun e => execClasses e a) >>= _)
    cases execClass env c with
    | error e => rfl
    | ok e => exact ih e

/-- The simple types, one after the other. -/
theorem exec_simples : ∀ (l : List GSimple) (env : PyEnv), (∀ st ∈ l, SimpleSurvives st) → (l.map (·.name)).Nodup →
    ∃ env', execClasses env (l.map codeSimple) = .ok env' ∧
      (∀ st ∈ l, env'.get st.name = some (.simple (simpleObj st))) ∧
      ∀ n, n ∉ l.map (·.name) → env'.get n = env.get n := by
  intro l
  induction l with
  | nil => intro env _ _; exact ⟨env, rfl, fun _ h => absurd h List.not_mem_nil, fun _ _ => rfl⟩
  | cons st l ih =>
    intro env hs hnd
    rw [List.map_cons, List.nodup_cons] at hnd
    obtain ⟨env', h1, h2, h3⟩ := ih ((st.name, .simple (simpleObj st)) :: env) (fun x hx => hs x (List.mem_cons_of_mem _ hx))
      hnd.2
    refine ⟨env', ?_, ?_, ?_⟩
    · show (execClass env (codeSimple st) >>= _) = _
      rw [execClass_simple env (hs st (List.mem_cons_self ..))]
      exact h1
    · intro x hx
      rcases List.mem_cons.1 hx with rfl | hx
      · rw [h3 _ hnd.1, get_cons, if_pos rfl]
      · exact h2 x hx
    · intro n hn
      rw [List.map_cons, List.mem_cons, not_or] at hn
      rw [h3 n hn.2, get_cons, if_neg fun h => hn.1 h.symm]

/-- Binding a new name keeps what was there. -/
theorem Knows.bind (hs : SchemaSurvives s limit) (hk : Knows s known env) {c : GComplex} {o : ComplexObj}
    (hc : c ∈ allClasses s) (ho : o.name = c.name) (known' : List Str)
    (hk' : ∀ n, n ∈ s.simpleTypes.map (·.name) → n ∈ known → n ∈ known')
    (hknown : ∀ n ∈ known', n ∈ s.complexTypes.map (·.name) → n ∈ known ∨ n = c.name) :
    Knows s known' ((c.name, .complex o) :: env) where
  simple := by
    intro st hst
    obtain ⟨h1, h2⟩ := hk.simple st hst
    refine ⟨hk' _ (List.mem_map.2 ⟨st, hst, rfl⟩) h1, ?_⟩
    rw [get_cons, if_neg]
    · exact h2
    · intro h
      exact (allClasses_survive hs hc).2.2.2 (h ▸ List.mem_map.2 ⟨st, hst, rfl⟩)
  complex := by
    intro d hd hm
    rw [get_cons]
    by_cases h : c.name = d.name
    · rw [if_pos h]
      exact ⟨o, rfl, ho.trans h⟩
    · rw [if_neg h]
      rcases hknown _ hm (List.mem_map.2 ⟨d, hd, rfl⟩) with h' | h'
      · exact hk.complex d hd h'
      · exact absurd h'.symm h

theorem HasClasses.bind {l : List GComplex} (h : HasClasses s env l) {c : GComplex} {o : ComplexObj}
    (ho : ObjFor s c o) (hn : c.name ∉ l.map (·.name)) : HasClasses s ((c.name, .complex o) :: env) (l ++ [c]) := by
  intro d hd
  rcases List.mem_append.1 hd with hd | hd
  · rw [get_cons, if_neg fun (he : c.name = d.name) => hn (he ▸ List.mem_map.2 ⟨d, hd, rfl⟩)]
    exact h d hd
  · rw [List.mem_singleton] at hd
    subst hd
    rw [get_cons, if_pos rfl]
    exact ⟨o, rfl, ho⟩

/-- The complex types, one after the other. -/
theorem exec_complexes (hs : SchemaSurvives s limit) : ∀ (l pre : List GComplex) (env : PyEnv),
    s.complexTypes = pre ++ l → Knows s (s.simpleTypes.map (·.name) ++ pre.map (·.name)) env → HasClasses s env pre →
    ∃ env', execClasses env (codeClasses (s.simpleTypes.map (·.name) ++ pre.map (·.name)) l) = .ok env' ∧
      Knows s (s.simpleTypes.map (·.name) ++ s.complexTypes.map (·.name)) env' ∧ HasClasses s env' s.complexTypes := by
  intro l
  induction l with
  | nil =>
    intro pre env he hk hh
    rw [List.append_nil] at he
    rw [he]
    exact ⟨env, rfl, hk, hh⟩
  | cons c l ih =>
    intro pre env he hk hh
    have hcm : c ∈ s.complexTypes := he ▸ List.mem_append_right _ (List.mem_cons_self ..)
    have hca : c ∈ allClasses s := List.mem_append_left _ hcm
    obtain ⟨_, h2, h3, _⟩ := allClasses_survive hs hca
    obtain ⟨o, ho, hobj⟩ := execClass_code hk h2 h3
    have hnd := hs.schemaOk.distinct
    rw [he, List.map_append, List.map_cons] at hnd
    have hfresh : c.name ∉ pre.map (·.name) := fun h => (List.nodup_append.1 hnd).2.2 _ h _ (List.mem_cons_self ..) rfl
    have hkn : (s.simpleTypes.map (·.name) ++ (pre ++ [c]).map (·.name)) =
        (s.simpleTypes.map (·.name) ++ pre.map (·.name)) ++ [c.name] := by simp
    obtain ⟨env', h4, h5, h6⟩ := ih (pre ++ [c]) ((c.name, .complex o) :: env) (by simp [he])
      (by
        rw [hkn]
        refine hk.bind hs hca hobj.name _ (fun n _ h => List.mem_append_left _ h) fun n hn _ => ?_
        rcases List.mem_append.1 hn with h | h
        · exact .inl h
        · exact .inr (List.mem_singleton.1 h))
      (hh.bind hobj hfresh)
    refine ⟨env', ?_, h5, h6⟩
    show (execClass env (codeClass _ c.name c) >>= _) = _
    rw [ho]
    rw [hkn] at h4
    exact h4

/-- The classes for top-level elements, one after the other. -/
theorem exec_tops (hs : SchemaSurvives s limit) : ∀ (l pre : List GComplex) (env : PyEnv),
    ownTypes s.elements = pre ++ l → Knows s known env → HasClasses s env (s.complexTypes ++ pre) →
    ∃ env', execClasses env (l.map fun c => codeClass known c.name c) = .ok env' ∧ Knows s known env' ∧
      HasClasses s env' (allClasses s) := by
  intro l
  induction l with
  | nil =>
    intro pre env he hk hh
    rw [List.append_nil] at he
    refine ⟨env, rfl, hk, ?_⟩
    unfold allClasses
    rw [he]
    exact hh
  | cons c l ih =>
    intro pre env he hk hh
    have hcm : c ∈ ownTypes s.elements := he ▸ List.mem_append_right _ (List.mem_cons_self ..)
    have hca : c ∈ allClasses s := List.mem_append_right _ hcm
    obtain ⟨_, h2, h3, _⟩ := allClasses_survive hs hca
    obtain ⟨o, ho, hobj⟩ := execClass_code hk h2 h3
    have hnd := allClasses_nodup hs
    unfold allClasses at hnd
    rw [he, ← List.append_assoc, List.map_append, List.map_cons] at hnd
    have hfresh : c.name ∉ (s.complexTypes ++ pre).map (·.name) :=
      fun h => (List.nodup_append.1 hnd).2.2 _ h _ (List.mem_cons_self ..) rfl
    obtain ⟨env', h4, h5, h6⟩ := ih (pre ++ [c]) ((c.name, .complex o) :: env) (by simp [he])
      (hk.bind hs hca hobj.name _ (fun _ _ h => h) fun _ h _ => .inl h)
      (by rw [← List.append_assoc]; exact hh.bind hobj hfresh)
    refine ⟨env', ?_, h5, h6⟩
    show (execClass env (codeClass _ c.name c) >>= _) = _
    rw [ho]
    exact h4

theorem exec_module_classes (hs : SchemaSurvives s limit) (digest : Str → Str) :
    ∃ env, execClasses [] (codeModule digest s).classes = .ok env ∧
      Knows s (s.simpleTypes.map (·.name) ++ s.complexTypes.map (·.name)) env ∧ HasClasses s env (allClasses s) := by
  have hnd := hs.distinct
  rw [moduleNames_eq, List.append_assoc] at hnd
  obtain ⟨env1, h1, h2, h3⟩ := exec_simples s.simpleTypes [] hs.simple (List.nodup_append.1 hnd).1
  have hk1 : Knows s (s.simpleTypes.map (·.name) ++ ([] : List GComplex).map (·.name)) env1 := by
    refine ⟨fun st hst => ⟨List.mem_append_left _ (List.mem_map.2 ⟨st, hst, rfl⟩), h2 st hst⟩, ?_⟩
    intro c hc hm
    rw [List.map_nil, List.append_nil] at hm
    exact absurd hm (allClasses_survive hs (List.mem_append_left _ hc)).2.2.2
  obtain ⟨env2, h4, h5, h6⟩ := exec_complexes hs s.complexTypes [] env1 rfl hk1 (fun _ h => absurd h List.not_mem_nil)
  obtain ⟨env3, h7, h8, h9⟩ := exec_tops (known := s.simpleTypes.map (·.name) ++ s.complexTypes.map (·.name)) hs
    (ownTypes s.elements) [] env2 rfl h5 (by rw [List.append_nil]; exact h6)
  refine ⟨env3, ?_, h8, h9⟩
  show execClasses [] (_ ++ _ ++ _) = _
  rw [execClasses_append, execClasses_append, h1]
  rw [List.map_nil, List.append_nil] at h4
  show (execClasses env1 (codeClasses (s.simpleTypes.map (·.name)) s.complexTypes) >>= _) = _
  rw [h4]
  exact h7

end

end Soapfish
