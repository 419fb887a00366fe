import Verif.ShownTypes
import Verif.PairedSurvive
/-
The classes of code generated from the description of a schema go together with those the schema object lists.
-/
namespace Soapfish

section
variable {s : GSchema} {limit : Nat} {env : PyEnv} {compile : Str → Pattern} {iso : Iso} {cls top : Str → ClsId}

theorem facet_pattern (st : GSimple) :
    (facetOf (simpleObj st).facets py"pattern").map Atom.str = seen (st.pattern.map .str) := by
  show (facetOf ((facetText (st.pattern.map .str)).toList.map fun s => (py"pattern", s)) py"pattern").map Atom.str = _
  rw [facetText_seen]
  cases hp : st.pattern with
  | none => rfl
  | some p => cases p with
    | nil => rfl
    | cons c cs =>
      rw [seen_present (by intro x hx; cases hx; simp [Blank])]
      rfl

/-- The type of a descriptor goes together with the type of the field it was described from. -/
theorem use_pair (hf : FinalEnv s env) (hs : SchemaSurvives s limit) {e : GElem} {u : TypeUse} (hu : UseFor s e.type.cls u)
    (hp : e.passedClass = true) (hk : TypeKept s e) {t : FType} (ht : TypeShown compile iso cls e t) :
    ∃ t', u.ftype compile iso env = some t' ∧ TypePair (Counterpart s cls top env.idOf) t t' := by
  unfold TypeKept at hk
  rw [if_pos hp] at hk
  obtain ⟨hk1, hk2⟩ := hk
  have simple : ∀ (b : Builtin) (o : SimpleObj), o.cls.root = some b → CommonBuiltin b → u = .simple o →
      (∀ n, e.type.cls ≠ .complex n) → (instanceOf o b.initKind []).stype compile iso = e.type.stype compile iso →
      ∃ t', u.ftype compile iso env = some t' ∧ TypePair (Counterpart s cls top env.idOf) t t' := by
    intro b o hr hb hu hne heq
    subst hu
    have hna : o.noAccept = false := by
      have := common_accept hb
      simp [SimpleObj.noAccept, hr, this]
    have hft : (TypeUse.simple o).ftype compile iso env = ((instanceOf o b.initKind []).stype compile iso).map .simple := by
      show (if o.noAccept = true then some .any else TypeUse.ftype.objType compile iso
        (.ok (instanceOf o ((o.cls.root.map Builtin.initKind).getD .other) []))) = _
      rw [hna, hr]
      rfl
    rw [hft, heq]
    cases ht with
    | complex h => exact absurd h (hne _)
    | simple _ h =>
      rw [h]
      exact ⟨_, rfl, .simple (fun _ => rfl) (fun _ => rfl) (fun _ => rfl) Iff.rfl⟩
  cases hc : e.type.cls with
  | simpleType => rw [hc] at hu; exact hu.elim
  | builtin b =>
    rw [hc] at hu
    obtain ⟨hb, rfl⟩ := hu
    have hbare := hk1 b hc
    rw [hc] at hbare
    refine simple b _ rfl hb rfl (by rw [hc]; simp) ?_
    exact kept_bare (cls := .builtin b) rfl (fun a ha => absurd ha List.not_mem_nil) hbare _ rfl rfl rfl
  | derived n b =>
    rw [hc] at hu
    obtain ⟨st, hst, rfl, rfl, rfl⟩ := hu
    have hsv := hs.simple st hst
    obtain ⟨b, hb, hcb⟩ := hsv.base
    have hbare := hk2 st hst b hb hc
    rw [hc] at hbare
    have hr : (TypeCls.derived st.name st.base).root = some b := by rw [hb]; rfl
    refine simple b _ hr hcb rfl (by rw [hc]; simp) ?_
    exact kept_bare hr hsv.enumeration hbare _ rfl rfl (facet_pattern st)
  | complex n =>
    rw [hc] at hu
    obtain ⟨⟨c, hcm, rfl⟩, hu⟩ := hu
    obtain ⟨o, ho, hobj⟩ := hf.classes c (List.mem_append_left _ hcm)
    have htar : u.target env = .ok (.complex c.name) := by
      rcases hu with rfl | rfl
      · rfl
      · show (match env.get c.name with | some o => Except.ok o.use | none => Except.error Exn.attributeError) = _
        rw [ho]
        show Except.ok (TypeUse.complex o.name) = _
        rw [hobj.name]
    have hft : u.ftype compile iso env = some (.complex (env.idOf c.name)) := by
      unfold TypeUse.ftype
      rw [htar]
      simp only
      rw [ho]
    refine ⟨_, hft, ?_⟩
    cases ht with
    | simple h => exact absurd hc (h _)
    | complex h =>
      rw [hc] at h
      injection h with h
      rw [← h]
      exact .complex (.type hcm)

/-- What is known of a field of generated code. -/
structure FromElem (e : GElem) (f : Field) : Prop where
  name : f.name = pyName e.written
  kind : f.kind = .element ∨ f.kind = .list
  tagname : (f.tagname = none ∧ e.written ∉ kwlist) ∨ f.tagname = some e.written

theorem FieldShown.written {e : GElem} {f : Field} (h : FieldShown compile iso cls e f) : f.writtenName = e.written := by
  unfold Field.writtenName GElem.written
  rw [h.tagname, h.name]

theorem FromElem.written {e : GElem} {f : Field} (h : FromElem e f) (hne : e.written ≠ []) : f.writtenName = e.written := by
  unfold Field.writtenName
  rcases h.tagname with ⟨h1, h2⟩ | h1
  · rw [if_pos (.inl h1), h.name]
    exact if_neg h2
  · rw [h1]
    simp [hne]

/-- The field goes together with the one it was described from. -/
theorem field_pair (hf : FinalEnv s env) (hs : SchemaSurvives s limit) {e : GElem} (he : ElemSurvives s e) (hk : TypeKept s e)
    {f : Field} (hsh : FieldShown compile iso cls e f) {p : Str × FieldObj} (hff : FieldFor s e p) :
    ∃ f', p.2.field compile iso env p.1 = some f' ∧ FieldPair (Counterpart s cls top env.idOf) f f' ∧ FromElem e f' := by
  have hne : e.written ≠ [] := by
    obtain ⟨⟨c, cs, h, _⟩, _⟩ := he.1
    rw [h]; simp
  cases hff with
  | @single u m hp hj hu hm =>
    obtain ⟨t', h1, h2⟩ := use_pair (top := top) hf hs hu hp hk hsh.type
    rcases hsh.occurs with ⟨o1, o2, o3, o4, o5⟩ | ⟨_, _, _, b, _, o2⟩
    · let f' : Field := { name := pyName e.written, kind := .element, type := t'
                          tagname := if e.written ∈ kwlist then some e.written else none
                          nillable := e.nillable, required := m ≠ 0 }
      have hfe : FromElem e f' := by
        refine ⟨rfl, .inl rfl, ?_⟩
        by_cases hkw : e.written ∈ kwlist
        · exact .inr (if_pos hkw)
        · exact .inl ⟨if_neg hkw, hkw⟩
      refine ⟨f', ?_, ?_, hfe⟩
      · show (u.ftype compile iso env).bind _ = _
        rw [h1]; rfl
      · refine ⟨o1, by rw [o1]; simp, by rw [hsh.written, hfe.written hne], by rw [o1]; simp, h2, hsh.nillable,
          ⟨_, hsh.plain.1, rfl⟩, hsh.plain.2, ?_, o4, o5⟩
        show f.required = decide (m ≠ 0)
        rw [hm] at o3
        cases hr : f.required with
        | false =>
          have := o3.1 hr
          injection this with this
          simp [this]
        | true =>
          have : m ≠ 0 := by
            rintro rfl
            rw [o3.2 rfl] at hr
            cases hr
          simp [this]
    · rw [o2] at hj; cases hj
  | @many u b hp hmany hb hu =>
    obtain ⟨t', h1, h2⟩ := use_pair (top := top) hf hs hu hp hk hsh.type
    rcases hsh.occurs with ⟨_, o2, _⟩ | ⟨o1, o2, o3, b', o4, o5⟩
    · rw [o2] at hb; cases hb
    · rw [hb] at o5
      injection o5 with o5
      injection o5 with o5
      subst o5
      let f' : Field := { name := pyName e.written, kind := .list, type := t', tagname := some e.written
                          nillable := e.nillable, minOccurs := e.minOccurs, maxOccurs := some b }
      have hfe : FromElem e f' := ⟨rfl, .inr rfl, .inr rfl⟩
      refine ⟨f', ?_, ?_, hfe⟩
      · show (u.ftype compile iso env).bind _ = _
        rw [h1]; rfl
      · exact ⟨o1, by rw [o1]; simp, by rw [hsh.written, hfe.written hne], by rw [o1]; simp, h2, hsh.nillable,
          ⟨_, hsh.plain.1, rfl⟩, hsh.plain.2, o2, o3, o4⟩
  | @inPlace t hp hin hj hm hn hkw hl hcall =>
    obtain ⟨b, hbc, hcb⟩ := hin.common
    have hst : t.stype compile iso = e.type.stype compile iso := by
      unfold TypeKept at hk
      rw [if_neg (by rw [hp]; simp)] at hk
      exact kept_inPlace hin hk hcall
    obtain ⟨ty, hty, hty2⟩ : ∃ ty, e.type.stype compile iso = some ty ∧ f.type = .simple ty := by
      have := hsh.type
      generalize f.type = ft at this
      cases this with
      | complex h => rw [hbc] at h; cases h
      | simple _ h => exact ⟨_, h, rfl⟩
    rcases hsh.occurs with ⟨o1, o2, o3, o4, o5⟩ | ⟨_, _, _, b, _, o2⟩
    · let f' : Field := { name := pyName e.written, kind := .element, type := .simple ty }
      have hfe : FromElem e f' := ⟨rfl, .inl rfl, .inl ⟨rfl, hkw⟩⟩
      refine ⟨f', ?_, ?_, hfe⟩
      · show ((TypeUse.inst t).ftype compile iso env).bind _ = _
        have : (TypeUse.inst t).ftype compile iso env = some (.simple ty) := by
          show (if t.cls.root = some .list ∨ t.cls.root = some .anyType then some FType.any else
            TypeUse.ftype.objType compile iso (.ok t)) = _
          have hna := common_accept hcb
          rw [if_neg (by rw [hl.cls, hbc]; simp [TypeCls.root, hna])]
          show (t.stype compile iso).map FType.simple = _
          rw [hst, hty]; rfl
        rw [this]; rfl
      · refine ⟨o1, by rw [o1]; simp, by rw [hsh.written, hfe.written hne], by rw [o1]; simp, ?_, by rw [hsh.nillable, hn],
          ⟨_, hsh.plain.1, rfl⟩, hsh.plain.2, ?_, o4, o5⟩
        · rw [hty2]
          exact .simple (fun _ => rfl) (fun _ => rfl) (fun _ => rfl) Iff.rfl
        · rw [hm] at o3
          show f.required = true
          cases hr : f.required with
          | true => rfl
          | false => have := o3.1 hr; cases this
    · rw [o2] at hj; cases hj

theorem mapO_some {α β : Type} {f : α → Option β} {l : List α} (h : ∀ a ∈ l, ∃ b, f a = some b) : ∃ r, mapO f l = some r := by
  induction l with
  | nil => exact ⟨[], rfl⟩
  | cons a l ih =>
    obtain ⟨b, hb⟩ := h a List.mem_cons_self
    obtain ⟨r, hr⟩ := ih fun x hx => h x (List.mem_cons_of_mem _ hx)
    exact ⟨b :: r, by unfold mapO; rw [hb, hr]; rfl⟩

/-- All fields of a class. -/
theorem fields_pair (hf : FinalEnv s env) (hs : SchemaSurvives s limit) : ∀ {es : List GElem} {os : List (Str × FieldObj)}
    {fs : List Field}, All2 (FieldFor s) es os → All2 (FieldShown compile iso cls) es fs → (∀ e ∈ es, ElemSurvives s e) →
    (∀ e ∈ es, TypeKept s e) →
    ∃ fs', mapO (fun p : Str × FieldObj => p.2.field compile iso env p.1) os = some fs' ∧
      All2 (FieldPair (Counterpart s cls top env.idOf)) fs fs' ∧ All2 FromElem es fs' := by
  intro es os fs h
  induction h generalizing fs with
  | nil => intro h _ _; cases h; exact ⟨[], rfl, .nil, .nil⟩
  | cons h1 _ ih =>
    intro h he hk
    cases h with
    | cons g1 g2 =>
      obtain ⟨f', a1, a2, a3⟩ := field_pair (top := top) hf hs (he _ List.mem_cons_self) (hk _ List.mem_cons_self) g1 h1
      obtain ⟨fs', b1, b2, b3⟩ := ih g2 (fun e h => he e (List.mem_cons_of_mem _ h)) fun e h => hk e (List.mem_cons_of_mem _ h)
      refine ⟨f' :: fs', ?_, .cons a2 b2, .cons a3 b3⟩
      unfold mapO
      rw [a1, b1]; rfl

/-- The names of generated classes are unambiguous. -/
theorem from_unambiguous {es : List GElem} {fs : List Field} (h : All2 FromElem es fs) (he : ∀ e ∈ es, e.written ≠ [])
    (hd : (es.map fun e => pyName e.written).Nodup) : fs.Pairwise fun f g => ¬ Clash f g := by
  have hkw : ∀ n, pyName n ∉ kwlist := by
    intro n hn
    unfold pyName at hn
    split at hn
    · have : ∀ k ∈ kwlist, k.head? ≠ some '_' := by decide +kernel
      exact this _ hn rfl
    · contradiction
  have key : ∀ (e e' : GElem) (f f' : Field), FromElem e f → FromElem e' f' → e.written ≠ [] → e'.written ≠ [] →
      pyName e.written ≠ pyName e'.written → f'.writtenName ≠ f.name ∧ f.tagname ≠ some f'.writtenName := by
    intro e e' f f' h h' hn hn' hp
    rw [h'.written hn', h.name]
    constructor
    · intro hc
      have : e'.written ∉ kwlist := by rw [hc]; exact hkw _
      refine hp ?_
      rw [← hc]
      exact (if_neg this).symm
    · intro hc
      rcases h.tagname with ⟨h1, _⟩ | h1
      · rw [h1] at hc; cases hc
      · rw [h1] at hc
        injection hc with hc
        exact hp (by rw [hc])
  induction h with
  | nil => exact .nil
  | @cons e f es fs h1 h2 ih =>
    rw [List.map_cons, List.nodup_cons] at hd
    refine .cons ?_ (ih (fun e h => he e (List.mem_cons_of_mem _ h)) hd.2)
    intro g hg hcl
    obtain ⟨e', he', hfe'⟩ := all2_right h2 hg
    have hne : pyName e.written ≠ pyName e'.written := fun h => hd.1 (List.mem_map.2 ⟨e', he', h.symm⟩)
    have w1 := he e List.mem_cons_self
    have w2 := he e' (List.mem_cons_of_mem _ he')
    have k1 := key e e' f g h1 hfe' w1 w2 hne
    have k2 := key e' e g f hfe' h1 w2 w1 (Ne.symm hne)
    rcases hcl with ⟨hk, _⟩ | ⟨_, _, hc⟩
    · rcases h1.kind with h | h <;> rw [h] at hk <;> cases hk
    · rcases hc with hc | hc | hc | hc
      · exact k1.1 hc
      · exact k1.2 hc
      · exact k2.1 hc
      · exact k2.2 hc

/-! ### The module -/

theorem execClasses_env {l : List PyClassDef} : ∀ {env env' : PyEnv}, execClasses env l = .ok env' →
    env'.map (·.1) = (l.map (·.name)).reverse ++ env.map (·.1) := by
  induction l with
  | nil => intro env env' h; rw [← Except.ok.inj h]; rfl
  | cons c l ih =>
    intro env env' h
    obtain ⟨e, h1, h2⟩ := execClasses_cons h
    obtain ⟨o, rfl⟩ := execClass_env h1
    rw [ih h2]
    simp

theorem codeClasses_names (l : List GComplex) : ∀ known, (codeClasses known l).map (·.name) = l.map (·.name) := by
  induction l with
  | nil => intro _; rfl
  | cons c l ih =>
    intro known
    show _ :: (codeClasses _ l).map (·.name) = _
    rw [ih]
    rfl

theorem codeModule_names (digest : Str → Str) (s : GSchema) :
    (codeModule digest s).classes.map (·.name) = moduleNames s := by
  rw [moduleNames_eq]
  show (s.simpleTypes.map codeSimple ++ codeClasses _ s.complexTypes ++ (ownTypes s.elements).map _).map _ = _
  rw [List.map_append, List.map_append, codeClasses_names, List.map_map, List.map_map]
  rfl

theorem get_of_mem {env : PyEnv} (hd : (env.map (·.1)).Nodup) {n : Str} {x : ClassObj} (h : (n, x) ∈ env) :
    env.get n = some x := by
  induction env with
  | nil => cases h
  | cons p env ih =>
    rw [List.map_cons, List.nodup_cons] at hd
    obtain ⟨m, y⟩ := p
    rw [get_cons]
    rcases List.mem_cons.1 h with h | h
    · obtain ⟨rfl, rfl⟩ := Prod.mk.inj h
      rw [if_pos rfl]
    · rw [if_neg, ih hd.2 h]
      rintro rfl
      exact hd.1 (List.mem_map.2 ⟨_, h, rfl⟩)

variable {T : Table}

/-- Every class of the module. -/
theorem shown_all (hT : Shown compile iso cls top T s) (hk : TypesKept s) {c : GComplex} (hc : c ∈ allClasses s) :
    (∃ k, ClassShown compile iso cls s c k) ∧ ∀ e ∈ c.elements, TypeKept s e := by
  rcases List.mem_append.1 hc with h | h
  · exact ⟨⟨_, hT.complex c h⟩, hk.complex c h⟩
  · obtain ⟨t, ht, d, hd, rfl⟩ := mem_ownTypes.1 h
    have h1 := hT.own t ht d hd
    exact ⟨⟨_, ⟨h1.fields, h1.choice, h1.schema, h1.plain⟩⟩, hk.own t ht d hd⟩

/-- The class made for a complex type. -/
theorem class_pair (hf : FinalEnv s env) (hs : SchemaSurvives s limit) {c : GComplex} (hc : c ∈ allClasses s) {o : ComplexObj}
    (ho : ObjFor s c o) {k : Cls} (hsh : ClassShown compile iso cls s c k) (hk : ∀ e ∈ c.elements, TypeKept s e) (i : ClsId) :
    ∃ k', o.cls compile iso env ⟨some s.targetNamespace, s.qualified⟩ i = some k' ∧
      ClassPair (Counterpart s cls top env.idOf) k k' ∧ k'.fields.Pairwise (fun f g => ¬ Clash f g) ∧
      ∀ f ∈ k'.fields, f.kind ≠ .ref := by
  obtain ⟨_, hsv, _, _⟩ := allClasses_survive hs hc
  obtain ⟨fs, h1, h2, h3⟩ := fields_pair (top := top) hf hs ho.fields hsh.fields hsv.elements hk
  refine ⟨_, by unfold ComplexObj.cls; rw [h1]; rfl, ⟨h2, ?_, hsh.schema, ?_, hsh.plain.2⟩, ?_, ?_⟩
  · show k.choice = decide (o.indicator = .choice)
    have := hsh.choice
    rw [ho.indicator] at this
    cases hkc : k.choice with
    | true =>
      have h := this.1 hkc
      injection h with h
      simp [h]
    | false =>
      have : o.indicator ≠ .choice := fun h => by
        have := this.2 (by rw [h])
        rw [hkc] at this; cases this
      simp [this]
  · show k.isGroup = o.group
    rw [hsh.plain.1, ho.group]
  · refine from_unambiguous h3 ?_ hsv.distinct
    intro e he
    obtain ⟨⟨c, cs, h, _⟩, _⟩ := (hsv.elements e he).1
    rw [h]; simp
  · intro f hf hkind
    obtain ⟨e, _, hfe⟩ := all2_right h3 hf
    rcases hfe.kind with h | h <;> rw [h] at hkind <;> cases hkind

theorem flat_noref {T : Table} {c : ClsId} (h : ∀ f ∈ (T c).fields, f.kind ≠ .ref) (n : Nat) :
    flat T (n + 1) c = (T c).fields := by
  unfold flat
  have : ∀ l : List Field, (∀ f ∈ l, f.kind ≠ .ref) → (l.flatMap fun f =>
      match f.kind, f.type with
      | .ref, .complex g => flat T n g
      | _, _ => [f]) = l := by
    intro l hl
    induction l with
    | nil => rfl
    | cons f l ih =>
      rw [List.flatMap_cons, ih fun g hg => hl g (List.mem_cons_of_mem _ hg)]
      have := hl f List.mem_cons_self
      split
      · contradiction
      · rfl
  exact this _ h

/-- The classes of the imported module. -/
theorem module_pair (hs : SchemaSurvives s limit) (hk : TypesKept s) (hT : Shown compile iso cls top T s) (digest : Str → Str)
    {env : PyEnv} {s' : GSchema} (hx : execModule [] [] limit (codeModule digest s) = .ok (env, s')) (hb : SchemaBack s s') :
    ∃ T', moduleTable compile iso env s' = some T' ∧ Paired (Counterpart s cls top env.idOf) T T' ∧ T'.Sane ∧
      (∀ c c', Counterpart s cls top env.idOf c c' → Unambiguous T' c') ∧
      ∀ c ∈ allClasses s, ∃ o, env.get c.name = some (.complex o) := by
  obtain ⟨env1, g1, g2, g3⟩ := exec_module_classes hs digest
  have himp := execModule_imported hx
  have : env1 = env := Except.ok.inj (g1.symm.trans himp.classes)
  subst this
  have hf : FinalEnv s env1 := ⟨fun st hst => (g2.simple st hst).2, g3⟩
  have hnames : env1.map (·.1) = (moduleNames s).reverse := by
    rw [execClasses_env himp.classes, codeModule_names]; simp
  have hnd : (env1.map (·.1)).Nodup := by rw [hnames]; exact List.nodup_reverse.2 hs.distinct
  have hinfo : (⟨some s'.targetNamespace, s'.qualified⟩ : SchemaInfo) = ⟨some s.targetNamespace, s.qualified⟩ := by
    rw [hb.targetNamespace, hb.qualified]
  obtain ⟨T', hT'⟩ : ∃ T', moduleTable compile iso env1 s' = some T' := by
    unfold moduleTable
    rw [hinfo]
    obtain ⟨l, hl⟩ : ∃ l, envClasses compile iso env1 ⟨some s.targetNamespace, s.qualified⟩ = some l := by
      unfold envClasses
      refine mapO_some ?_
      rintro ⟨⟨n, x⟩, i⟩ hm
      have hmem : (n, x) ∈ env1 := by
        obtain ⟨h1, h2⟩ := List.mem_zipIdx' hm
        exact h2 ▸ List.getElem_mem _
      cases x with
      | simple o => exact ⟨_, rfl⟩
      | complex o =>
        have hget := get_of_mem hnd hmem
        have hn : n ∈ moduleNames s := by
          have : n ∈ env1.map (·.1) := List.mem_map.2 ⟨_, hmem, rfl⟩
          rw [hnames] at this
          exact List.mem_reverse.1 this
        have hcl : ∃ c ∈ allClasses s, c.name = n := by
          rw [moduleNames_eq] at hn
          rcases List.mem_append.1 hn with h | h
          · rcases List.mem_append.1 h with h | h
            · obtain ⟨st, hst, rfl⟩ := List.mem_map.1 h
              rw [hf.simple st hst] at hget
              cases hget
            · obtain ⟨c, hc, rfl⟩ := List.mem_map.1 h
              exact ⟨c, List.mem_append_left _ hc, rfl⟩
          · obtain ⟨c, hc, rfl⟩ := List.mem_map.1 h
            exact ⟨c, List.mem_append_right _ hc, rfl⟩
        obtain ⟨c, hc, rfl⟩ := hcl
        obtain ⟨o', h1, h2⟩ := hf.classes c hc
        rw [hget] at h1
        injection h1 with h1
        injection h1 with h1
        subst h1
        obtain ⟨⟨k, hsh⟩, hkt⟩ := shown_all hT hk hc
        obtain ⟨k', h3, _⟩ := class_pair (top := top) hf hs hc h2 hsh hkt i
        exact ⟨k', h3⟩
    rw [hl]
    exact ⟨_, rfl⟩
  have hall : ∀ c ∈ allClasses s, ∀ k, ClassShown compile iso cls s c k →
      ClassPair (Counterpart s cls top env1.idOf) k (T' (env1.idOf c.name)) ∧ Unambiguous T' (env1.idOf c.name) := by
    intro c hc k hsh
    obtain ⟨o, ho, hobj⟩ := hf.classes c hc
    have hcls := moduleTable_class hT' ho
    rw [hinfo] at hcls
    obtain ⟨k', h1, h2, h3, h4⟩ := class_pair (top := top) hf hs hc hobj hsh (shown_all hT hk hc).2 (env1.idOf c.name)
    rw [h1] at hcls
    have := Option.some.inj hcls
    subst this
    refine ⟨h2, fun n => ?_⟩
    cases n with
    | zero => exact .nil
    | succ n => rw [flat_noref h4]; exact h3
  have hown : ∀ t ∈ s.elements, ∀ c, t.type = .inst (some c) →
      ({ c with name := capName t.name } : GComplex) ∈ allClasses s ∧
      ClassShown compile iso cls s { c with name := capName t.name } (T (top t.name)) := by
    intro t ht c hc
    have h1 := hT.own t ht c hc
    exact ⟨List.mem_append_right _ (mem_ownTypes.2 ⟨t, ht, c, hc, rfl⟩), ⟨h1.fields, h1.choice, h1.schema, h1.plain⟩⟩
  refine ⟨T', hT', ?_, moduleTable_sane hT' (execClasses_ok himp.classes envOk_nil), ?_, fun c hc => ?_⟩
  · intro c c' hr
    cases hr with
    | type hc => exact (hall _ (List.mem_append_left _ hc) _ (hT.complex _ hc)).1
    | own ht hc =>
      obtain ⟨h1, h2⟩ := hown _ ht _ hc
      exact (hall _ h1 _ h2).1
  · intro c c' hr
    cases hr with
    | type hc => exact (hall _ (List.mem_append_left _ hc) _ (hT.complex _ hc)).2
    | own ht hc =>
      obtain ⟨h1, h2⟩ := hown _ ht _ hc
      exact (hall _ h1 _ h2).2
  · obtain ⟨o, ho, _⟩ := hf.classes c hc
    exact ⟨o, ho⟩

end

end Soapfish
