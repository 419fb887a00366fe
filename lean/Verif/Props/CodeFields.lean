import Verif.RunPlain
/-
The fields of classes in generated code: C86.
-/
set_option maxRecDepth 8000
namespace Soapfish

section
variable {prefixes : List (Option Str)} {digest : Str → Str} {n limit : Nat} {parent : Option Str} {d : DSchema}
  {m : PyModule} {vars : SchemaVars} {env : PyEnv} {s : GSchema} {compile : Str → Pattern} {iso : Iso} {T : Table}

theorem All2.split {α β : Type} {R : α → β → Prop} {a b : List α} : ∀ {l : List β}, All2 R (a ++ b) l →
    ∃ x y, l = x ++ y ∧ All2 R a x ∧ All2 R b y := by
  induction a with
  | nil => intro l h; exact ⟨[], l, rfl, .nil, h⟩
  | cons p a ih =>
    intro l h
    cases h with
    | cons h1 h2 =>
      obtain ⟨x, y, rfl, h3, h4⟩ := ih h2
      exact ⟨_ :: x, y, rfl, .cons h1 h3, h4⟩

theorem All2.mem {α β : Type} {R : α → β → Prop} {a : List α} {b : List β} (h : All2 R a b) :
    All2 (fun x y => x ∈ a ∧ y ∈ b ∧ R x y) a b := by
  induction h with
  | nil => exact .nil
  | cons h1 _ ih =>
    exact .cons ⟨List.mem_cons_self, List.mem_cons_self, h1⟩
      (ih.imp fun x y h => ⟨List.mem_cons_of_mem _ h.1, List.mem_cons_of_mem _ h.2.1, h.2.2⟩)

/-- The fields of elements, one by one. -/
theorem elems_fields {R : DElement → Field → Prop} {Q : PyField → Field → Prop} {known : List Str} {els : List DElement}
    {es : List (List PyField)} (h : All2 (fun e f => elementFields prefixes known e = .ok f) els es)
    (hp : ∀ e ∈ els, e.ref = none ∧ e.name.isSome ∧ e.type ≠ some [] ∧ ¬ (e.type.isSome ∧ e.simpleType.isSome)) :
    ∀ {fs : List Field}, All2 Q es.flatten fs →
    (∀ e ∈ els, ∀ l, elementFields prefixes known e = .ok l → ∀ pf ∈ l, pf ∈ es.flatten → ∀ f, Q pf f → R e f) →
    All2 R (els.filter (·.typed)) fs := by
  induction h with
  | nil => intro fs hf _; cases hf; exact .nil
  | @cons e l els es h1 _ ih =>
    intro fs hf hR
    rw [List.flatten_cons] at hf
    obtain ⟨x, y, rfl, h2, h3⟩ := hf.split
    have hrest := ih (fun a ha => hp a (List.mem_cons_of_mem _ ha)) h3 fun a ha l' hl pf hpf hin f hq =>
      hR a (List.mem_cons_of_mem _ ha) l' hl pf hpf (by rw [List.flatten_cons]; exact List.mem_append_right _ hin) f hq
    obtain ⟨hr, hs, ht, hb⟩ := hp e List.mem_cons_self
    obtain ⟨n, hn⟩ := Option.isSome_iff_exists.1 hs
    have hhead : ∀ pf ∈ l, ∀ f, Q pf f → R e f := fun pf hpf f hq =>
      hR e List.mem_cons_self l h1 pf hpf (by rw [List.flatten_cons]; exact List.mem_append_left _ hpf) f hq
    have one : ∀ pf, l = [pf] → e.typed = true → All2 R ((e :: els).filter (·.typed)) (x ++ y) := by
      intro pf hl ht
      rw [hl] at h2
      rw [List.filter_cons_of_pos ht]
      cases h2 with
      | cons hq h0 =>
        cases h0
        exact .cons (hhead pf (by rw [hl]; exact List.mem_cons_self) _ hq) hrest
    have hsome : ∀ q, e.type = some q → e.typed = true := by
      intro q hq; unfold DElement.typed; rw [hq]; rfl
    rcases elementFields_cases h1 hr ht hb hn with ⟨ht, hl⟩ | ⟨q, r, b, hq, _, _, _, _, _, hl⟩ | ⟨q, r, hq, _, _, _, _, hl⟩ |
      ⟨st, r, args, _, hst, hl, _, _⟩
    · rw [hl] at h2
      cases h2
      rw [List.filter_cons_of_neg (by rw [ht]; decide)]
      exact hrest
    · exact one _ hl (hsome q hq)
    · exact one _ hl (hsome q hq)
    · exact one _ hl (by unfold DElement.typed; rw [hst]; simp)

theorem all2_flatten {α β : Type} {R : α → β → Prop} {ll : List (List α)} : ∀ {l : List β}, All2 R ll.flatten l →
    ∃ ls, l = ls.flatten ∧ All2 (All2 R) ll ls := by
  induction ll with
  | nil => intro l h; cases h; exact ⟨[], rfl, .nil⟩
  | cons a ll ih =>
    intro l h
    rw [List.flatten_cons] at h
    obtain ⟨x, y, rfl, h1, h2⟩ := h.split
    obtain ⟨ls, rfl, h3⟩ := ih h2
    exact ⟨x :: ls, rfl, .cons h1 h3⟩

theorem layer_fields (hm : schemaToPy prefixes digest n parent d = .ok m) (he : execModule vars [] limit m = .ok (env, s))
    (hd : (m.classes.map (·.name)).Nodup) {dc : DContent} {N : Str} {known : List Str} {c : PyClassDef} {e : PyEnv} {base : ComplexObj}
    {os : List (Str × FieldObj)} {as : List PyField} {es : List (List PyField)}
    (h : LayerClass prefixes dc N m env known c e base os as es) (hp : PlainContent dc) {fs : List Field}
    (hcls : All2 (fun p f => FieldObj.field compile iso env p.1 p.2 = some f) os fs) :
    ∃ as es, fs = as ++ es ∧
      All2 (fun a f => AttrField a f ∧ ∀ q, a.type = some q → q ≠ [] → TypeMeans prefixes d env compile iso q f.type)
        dc.attributes as ∧
      All2 (fun e f => ElemField e f ∧ ∀ q, e.type = some q → TypeMeans prefixes d env compile iso q f.type)
        (dc.elements.filter (·.typed)) es := by
  have himp := execModule_imported he
  have hall := h.exec.comp hcls
  rw [h.fields] at hall
  obtain ⟨x, y, hxy, h1, h2⟩ := hall.split
  refine ⟨x, y, hxy, ?_, ?_⟩
  · have h3 := (h.attrs.mem).comp h1
    refine h3.imp ?_
    rintro a f ⟨pf, ⟨ha, hpf, hat⟩, p, ⟨ht, bound, _, hx⟩, hf⟩
    obtain ⟨hr, hs⟩ := hp.attributes a ha
    obtain ⟨h4, r, u, h5, h6, h7⟩ := attr_field hat hr hs
      (checked_field himp.check h.mem (by rw [h.fields]; exact List.mem_append_left _ hpf)) ht hx hf
    refine ⟨h4, fun q hq hq0 => ?_⟩
    rw [hq] at h5
    exact typeMeans hm himp he hd hq0 h5 h6 h7 h.mono
  · refine elems_fields h.elems hp.elements h2 ?_
    rintro el hel l hl pf hpf hin f ⟨p, ⟨ht, bound, _, hx⟩, hf⟩
    obtain ⟨_, h4, h5⟩ := elem_field hl hpf (hp.elements el hel)
      (checked_field himp.check h.mem (by rw [h.fields]; exact List.mem_append_right _ hin)) ht hx hf
    refine ⟨h4, fun q hq => ?_⟩
    obtain ⟨r, u, h6, h7, h8, h9⟩ := h5 q hq
    exact typeMeans hm himp he hd h6 h7 h8 h9 h.mono

/-- **C86 (names).** Code is generated only if every complex type of the document has a name; the code lists the class of
that name with a capital letter in front. -/
theorem C86_named (hm : schemaToPy prefixes digest n parent d = .ok m) {ct : DComplex} (hct : ct ∈ d.complexTypes) :
    ∃ c cs, ct.name = some (c :: cs) ∧ upperC c :: cs ∈ m.schema.complexTypes := by
  obtain ⟨_, _, N, _, _, hN, hmem⟩ := schemaToPy_complex hm hct
  match hname : ct.name with
  | none => rw [hname] at hN; cases hN
  | some [] => rw [hname] at hN; cases hN
  | some (c :: cs) =>
    rw [hname] at hN
    refine ⟨c, cs, rfl, ?_⟩
    rw [← Except.ok.inj hN] at hmem
    exact hmem

/-- **C86 (fields).** The class for a complex type has, layer by layer from the innermost base type on, one field for each
attribute, then one for each element with a type, in the order of the document: with the names, types, occurrences and
`nillable` declared there.  Elements with a complex type in place have none. -/
theorem C86_fields (hm : schemaToPy prefixes digest n parent d = .ok m) (he : execModule vars [] limit m = .ok (env, s))
    (hd : (m.classes.map (·.name)).Nodup) (hT : moduleTable compile iso env s = some T)
    {ct : DComplex} (hct : ct ∈ d.complexTypes) {N : Str} (hn : ct.name = some N) {cs : List DContent}
    (hl : Layers prefixes d ct cs) (hp : ∀ c ∈ cs, PlainContent c) (hdist : (layerNames cs).Nodup) (hcr : py"create" ∉ layerNames cs) :
    ∃ parts, (T (env.idOf (capName N))).fields = parts.flatten ∧
      All2 (fun c fs => ∃ as es, fs = as ++ es ∧
        All2 (fun a f => AttrField a f ∧ ∀ q, a.type = some q → q ≠ [] → TypeMeans prefixes d env compile iso q f.type)
          c.attributes as ∧
        All2 (fun e f => ElemField e f ∧ ∀ q, e.type = some q → TypeMeans prefixes d env compile iso q f.type)
          (c.elements.filter (·.typed)) es) cs parts := by
  have himp := execModule_imported he
  obtain ⟨bs, c, base, bparts, os, known, cls, e, as, es, rfl, h, -, hbf, -, hball, -⟩ := layers_class hm himp hd hl hct hn hp hdist hcr
  have hcls := (cls_parts (moduleTable_class hT h.get)).1
  have hcls' : All2 (fun p f => FieldObj.field compile iso env p.1 p.2 = some f) (bparts ++ [os]).flatten
      (T (env.idOf (capName N))).fields := by
    have : (bparts ++ [os]).flatten = base.fields ++ os := by rw [hbf]; simp
    rw [this]; exact hcls
  obtain ⟨parts, hparts, hall⟩ := all2_flatten hcls'
  refine ⟨parts, hparts, ?_⟩
  have hL : All2 (fun c part => ∃ N base known cls e as es, LayerClass prefixes c N m env known cls e base part as es)
      (bs ++ [c]) (bparts ++ [os]) := hball.append (.cons ⟨_, _, _, _, _, _, _, h⟩ .nil)
  refine (hL.mem.comp hall).imp ?_
  rintro c' fs ⟨part, ⟨hc', _, _, _, _, _, _, _, _, hlc⟩, hfs⟩
  exact layer_fields hm he hd hlc (hp c' hc') hfs

theorem elem_kind {e : DElement} {f : Field} (h : ElemField e f) (ht : e.typed = true) : f.kind = .element ∨ f.kind = .list := by
  unfold DElement.typed at ht
  rw [Bool.or_eq_true] at ht
  rcases ht with ht | ht
  · by_cases hmany : e.Many
    · exact .inr (h.many ht hmany).1
    · exact .inl (h.one ht hmany).1
  · exact .inl (h.inPlace ht).1

/-- **C86 (fields).** The attribute fields alone are those of the attributes of all layers, the other ones those of the
elements. -/
theorem C86_split (hm : schemaToPy prefixes digest n parent d = .ok m) (he : execModule vars [] limit m = .ok (env, s))
    (hd : (m.classes.map (·.name)).Nodup) (hT : moduleTable compile iso env s = some T)
    {ct : DComplex} (hct : ct ∈ d.complexTypes) {N : Str} (hn : ct.name = some N) {cs : List DContent}
    (hl : Layers prefixes d ct cs) (hp : ∀ c ∈ cs, PlainContent c) (hdist : (layerNames cs).Nodup) (hcr : py"create" ∉ layerNames cs) :
    All2 (fun a f => AttrField a f ∧ ∀ q, a.type = some q → q ≠ [] → TypeMeans prefixes d env compile iso q f.type)
      (cs.map (·.attributes)).flatten ((T (env.idOf (capName N))).fields.filter fun f => f.kind = .attribute) ∧
    All2 (fun e f => ElemField e f ∧ ∀ q, e.type = some q → TypeMeans prefixes d env compile iso q f.type)
      ((cs.map (·.elements)).flatten.filter (·.typed)) ((T (env.idOf (capName N))).fields.filter fun f => ¬ f.kind = .attribute) := by
  obtain ⟨parts, hf, h⟩ := C86_fields hm he hd hT hct hn hl hp hdist hcr
  rw [hf]
  clear hf hl hp hdist hcr
  induction h with
  | nil => exact ⟨.nil, .nil⟩
  | @cons c fs cs parts h _ ih =>
    obtain ⟨as, es, rfl, h1, h2⟩ := h
    have ha : ∀ f ∈ as, f.kind = .attribute := fun f hf => by
      obtain ⟨a, _, h, _⟩ := h1.mem_right hf
      exact h.kind
    have he' : ∀ f ∈ es, f.kind ≠ .attribute := fun f hf => by
      obtain ⟨a, ha, h, _⟩ := h2.mem_right hf
      rcases elem_kind h (List.mem_filter.1 ha).2 with h | h <;> rw [h] <;> simp
    have e1 : as.filter (fun f => decide (f.kind = .attribute)) = as := List.filter_eq_self.2 fun f hf => decide_eq_true (ha f hf)
    have e2 : es.filter (fun f => decide (f.kind = .attribute)) = [] := List.filter_eq_nil_iff.2 fun f hf => by simpa using he' f hf
    have e3 : as.filter (fun f => decide (¬ f.kind = .attribute)) = [] := List.filter_eq_nil_iff.2 fun f hf => by simpa using ha f hf
    have e4 : es.filter (fun f => decide (¬ f.kind = .attribute)) = es := List.filter_eq_self.2 fun f hf => decide_eq_true (he' f hf)
    simp only [List.map_cons, List.flatten_cons, List.filter_append]
    rw [e1, e2, e3, e4, List.append_nil, List.nil_append]
    exact ⟨h1.append ih.1, h2.append ih.2⟩

/-- **C86 (the class).** The class is named after the type, belongs to the schema of the document, and is a choice exactly
if the last layer that says so is one. -/
theorem C86_class (hm : schemaToPy prefixes digest n parent d = .ok m) (he : execModule vars [] limit m = .ok (env, s))
    (hd : (m.classes.map (·.name)).Nodup) (hT : moduleTable compile iso env s = some T)
    {ct : DComplex} (hct : ct ∈ d.complexTypes) {N : Str} (hn : ct.name = some N) {cs : List DContent}
    (hl : Layers prefixes d ct cs) (hp : ∀ c ∈ cs, PlainContent c) (hdist : (layerNames cs).Nodup) (hcr : py"create" ∉ layerNames cs)
    {ns : Str} (hns : d.targetNamespace = some ns)
    (hplain : PlainText '\'' ns) {form : Str} (hform : d.elementFormDefault = some form) (hplain' : PlainText '\'' form) :
    (T (env.idOf (capName N))).name = capName N ∧
    (T (env.idOf (capName N))).schema = some ⟨some ns, decide (form = py"qualified")⟩ ∧
    ((T (env.idOf (capName N))).choice = true ↔ ∃ x c y, cs = x ++ c :: y ∧ c.IsChoice ∧ ∀ c' ∈ y, c'.NoOrder) ∧
    (T (env.idOf (capName N))).header = false ∧ T.Sane := by
  have himp := execModule_imported he
  obtain ⟨bs, dc, base, bparts, os, known, c, e, as, es, rfl, h, -, hbf, -, hball, hi, -⟩ := layers_class hm himp hd hl hct hn hp hdist hcr
  have hc := moduleTable_class hT h.get
  have hcls := cls_parts hc
  have hns' := himp.nspace
  obtain ⟨f, hf, hq⟩ := himp.form
  rw [(schemaToPy_header hm).1, hns] at hns'
  rw [(schemaToPy_header hm).2, hform] at hf
  have e1 : ns = s.targetNamespace := Option.some.inj ((textValue_plain hplain).symm.trans hns')
  have e2 : form = f := Option.some.inj ((textValue_plain hplain').symm.trans hf)
  refine ⟨?_, ?_, ?_, hcls.2.2.2.2.2, moduleTable_sane hT (execClasses_ok himp.classes envOk_nil)⟩
  · unfold ComplexObj.cls at hc
    cases hmo : mapO (fun p : Str × FieldObj => FieldObj.field compile iso env p.1 p.2) (base.fields ++ os) with
    | none => simp only [hmo] at hc; cases hc
    | some l => simp only [hmo] at hc; rw [← Option.some.inj hc]
  · rw [hcls.2.2.2.1, e1, hq, e2]
  · rw [hcls.2.2.1, h.indicator, decide_eq_true_iff, choice_append hi]

/-! ### `create` -/

theorem createParams_names {l : List DElement} (h : ∀ e ∈ l, e.ref = none ∧ e.name.isSome) :
    createParams l = ((l.filter fun e => decide (e.minOccurs = some 1 ∨ e.minOccurs = none)).filterMap (·.name)).map pyName := by
  unfold createParams
  induction l with
  | nil => rfl
  | cons e l ih =>
    have ih := ih fun a ha => h a (List.mem_cons_of_mem _ ha)
    obtain ⟨hr, hs⟩ := h e List.mem_cons_self
    obtain ⟨n, hn⟩ := Option.isSome_iff_exists.1 hs
    by_cases hc : e.minOccurs = some 1 ∨ e.minOccurs = none
    · have hf : (e :: l).filter (fun e => decide (e.minOccurs = some 1 ∨ e.minOccurs = none)) =
          e :: l.filter (fun e => decide (e.minOccurs = some 1 ∨ e.minOccurs = none)) :=
        List.filter_cons_of_pos (p := fun e : DElement => decide (e.minOccurs = some 1 ∨ e.minOccurs = none))
          (decide_eq_true hc)
      rw [hf, List.map_cons, ih, List.filterMap_cons_some hn, List.map_cons, hr, hn]
      rfl
    · have hf : (e :: l).filter (fun e => decide (e.minOccurs = some 1 ∨ e.minOccurs = none)) =
          l.filter (fun e => decide (e.minOccurs = some 1 ∨ e.minOccurs = none)) :=
        List.filter_cons_of_neg (p := fun e : DElement => decide (e.minOccurs = some 1 ∨ e.minOccurs = none))
          (by simpa using hc)
      rw [hf, ih]

/-- **C86 (`create`).** The class for a sequence has a method `create` whose parameters are the elements with `minOccurs`
1, or none given, in the order of the document; no two have the same name. -/
theorem C86_create_params (hm : schemaToPy prefixes digest n parent d = .ok m)
    (he : execModule vars [] limit m = .ok (env, s)) (hd : (m.classes.map (·.name)).Nodup)
    {ct : DComplex} (hct : ct ∈ d.complexTypes) {N : Str} (hn : ct.name = some N) {bs : List DContent} {dc : DContent}
    (hl : Layers prefixes d ct (bs ++ [dc])) (hp : ∀ c ∈ bs ++ [dc], PlainContent c) (hdist : (layerNames (bs ++ [dc])).Nodup)
    (hcr : py"create" ∉ layerNames (bs ++ [dc])) (hseq : dc.sequence ≠ none) :
    ∃ c ∈ m.classes, c.name = capName N ∧ c.create = some dc.createNames ∧ dc.createNames.Nodup := by
  have himp := execModule_imported he
  obtain ⟨bs', dc', base, bparts, os, known, c, e, as, es, hlast, h, -⟩ := layers_class hm himp hd hl hct hn hp hdist hcr
  have := (List.append_inj' hlast rfl).2
  cases this
  have hp := hp dc (by simp)
  have hcreate : c.create = some dc.createNames := by
    rw [h.create]
    cases hs : dc.sequence with
    | none => exact absurd hs hseq
    | some l =>
      have hl : dc.elements = l := by unfold DContent.elements; rw [hs]; rfl
      have := createParams_names (l := l) fun a ha => by
        rw [← hl] at ha
        exact ⟨(hp.elements a ha).1, (hp.elements a ha).2.1⟩
      show some (createParams l) = _
      rw [this]
      unfold DContent.createNames
      rw [hl]
  refine ⟨c, h.mem, h.name, hcreate, ?_⟩
  have hc := himp.check
  unfold checkModule at hc
  cases h1 : forE checkClass m.classes with
  | error e => simp only [h1, bind, Except.bind] at hc; cases hc
  | ok u =>
    have h2 := forE_mem h1 c h.mem
    unfold checkClass at h2
    simp only [bind, Except.bind] at h2
    split at h2
    · cases h2
    split at h2
    · cases h2
    split at h2
    case isFalse => cases h2
    split at h2
    · cases h2
    split at h2
    · cases h2
    rw [hcreate] at h2
    unfold checkParams at h2
    split at h2
    · rename_i h3
      exact (List.nodup_cons.1 h3).2
    · cases h2

theorem setAttr_class {T : Table} {nw : ClsId → Except Exn Val} {c : ClsId} {fs : List (Str × Val)} {x : Option Xml} {k : Str} {w v : Val}
    (h : setAttr T nw (.inst c fs x) k w = .ok v) : ∃ f a, findField (T c).fields k = .ok f ∧ f.accept T nw w = .ok a ∧
      v = .inst c (Dict.set fs k a) x := by
  unfold setAttr at h
  simp only [bind, Except.bind] at h
  cases h1 : findField (T c).fields k with
  | error e => rw [h1] at h; cases h
  | ok f =>
    rw [h1] at h
    simp only at h
    cases h2 : f.accept T nw w with
    | error e => rw [h2] at h; cases h
    | ok a => rw [h2] at h; exact ⟨f, a, rfl, h2, (Except.ok.inj h).symm⟩

theorem setAttrs_fields {T : Table} {nw : ClsId → Except Exn Val} {c : ClsId} : ∀ {l : List (Str × Val)} {fs : List (Str × Val)}
    {x : Option Xml} {v : Val}, foldE (fun v p => setAttr T nw v p.1 p.2) (.inst c fs x) l = .ok v →
    ∀ p ∈ l, ∃ f ∈ (T c).fields, f.name = p.1 := by
  intro l
  induction l with
  | nil => intro _ _ _ _ p hp; cases hp
  | cons q l ih =>
    intro fs x v h p hp
    unfold foldE at h
    cases h1 : setAttr T nw (.inst c fs x) q.1 q.2 with
    | error e => simp only [h1, bind, Except.bind] at h; cases h
    | ok w =>
      simp only [h1, bind, Except.bind] at h
      obtain ⟨f, a, h2, _, rfl⟩ := setAttr_class h1
      rcases List.mem_cons.1 hp with rfl | hp
      · obtain ⟨h3, h4⟩ := findField_ok h2
        exact ⟨f, h3, h4⟩
      · exact ih h p hp

theorem setAttrs_ok {T : Table} {nw : ClsId → Except Exn Val} {c : ClsId} (hT : ((T c).fields.map (·.name)).Nodup) :
    ∀ {l : List (Str × Val × Val)} (fs : List (Str × Val)) (x : Option Xml),
    (∀ p ∈ l, ∃ f ∈ (T c).fields, f.name = p.1 ∧ f.accept T nw p.2.1 = .ok p.2.2) → (l.map (·.1)).Nodup →
    ∃ fs', foldE (fun v p => setAttr T nw v p.1 p.2) (.inst c fs x) (l.map fun p => (p.1, p.2.1)) = .ok (.inst c fs' x) ∧
      (∀ p ∈ l, Dict.get? fs' p.1 = some p.2.2) ∧ ∀ k, k ∉ l.map (·.1) → Dict.get? fs' k = Dict.get? fs k := by
  intro l
  induction l with
  | nil => intro fs x _ _; exact ⟨fs, rfl, fun _ h => absurd h List.not_mem_nil, fun _ _ => rfl⟩
  | cons q l ih =>
    intro fs x h hnd
    obtain ⟨f, hf, hfn, hfa⟩ := h q List.mem_cons_self
    rw [List.map_cons] at hnd
    obtain ⟨hq, hnd⟩ := List.nodup_cons.1 hnd
    obtain ⟨fs', h1, h2, h3⟩ := ih (Dict.set fs q.1 q.2.2) x (fun p hp => h p (List.mem_cons_of_mem _ hp)) hnd
    refine ⟨fs', ?_, ?_, ?_⟩
    · rw [List.map_cons]
      unfold foldE
      have : setAttr T nw (.inst c fs x) q.1 q.2.1 = .ok (.inst c (Dict.set fs q.1 q.2.2) x) := by
        unfold setAttr
        simp only [bind, Except.bind]
        rw [← hfn, findField_mem hT hf]
        simp only [hfa]
      simp only [this, bind, Except.bind]
      exact h1
    · intro p hp
      rcases List.mem_cons.1 hp with rfl | hp
      · rw [h3 _ hq]; exact get_set_self _ _ _
      · exact h2 p hp
    · intro k hk
      rw [List.map_cons] at hk
      rw [h3 k fun h => hk (List.mem_cons_of_mem _ h)]
      exact Dict.get_set_other _ _ _ _ fun h => hk (h ▸ List.mem_cons_self)

/-- **C86 (`create` works).** With one value for each parameter that its field accepts, `create` returns a new instance with
these values; fields that are no parameters are as in any new instance. -/
theorem C86_create (he : execModule vars [] limit m = .ok (env, s)) (hT : moduleTable compile iso env s = some T)
    {K : Nat} {c : ClsId} {params : List Str} (hd : params.Nodup) {args vals : List Val}
    (hl : args.length = params.length) (hl' : vals.length = params.length) {fs : List (Str × Val)}
    (hnew : newInst T K c = .ok (.inst c fs none))
    (hacc : ∀ p ∈ params.zip (args.zip vals), ∃ f ∈ (T c).fields, f.name = p.1 ∧ f.accept T (newInst T K) p.2.1 = .ok p.2.2) :
    ∃ fs', callCreate T K c params args = .ok (.inst c fs' none) ∧
      (∀ p ∈ params.zip vals, Dict.get? fs' p.1 = some p.2) ∧ ∀ k ∉ params, Dict.get? fs' k = Dict.get? fs k := by
  have hsane := moduleTable_sane hT (execClasses_ok (execModule_imported he).classes envOk_nil)
  have hlen : (args.zip vals).length = params.length := by rw [List.length_zip]; omega
  have hkeys : (params.zip (args.zip vals)).map (·.1) = params := by
    rw [List.map_fst_zip (by omega)]
  obtain ⟨fs', h1, h2, h3⟩ := setAttrs_ok (hsane.names c) fs none hacc (by rw [hkeys]; exact hd)
  refine ⟨fs', ?_, ?_, ?_⟩
  · unfold callCreate
    rw [if_pos hl, hnew]
    have : (params.zip (args.zip vals)).map (fun p => (p.1, p.2.1)) = params.zip args := by
      clear hacc hkeys h1 h2 h3 hlen hd
      induction params generalizing args vals with
      | nil => rfl
      | cons p ps ih =>
        cases args with
        | nil => cases hl
        | cons a as =>
          cases vals with
          | nil => cases hl'
          | cons v vs => simp only [List.zip_cons_cons, List.map_cons, ih (by simpa using hl) (by simpa using hl')]
    rw [← this]
    exact h1
  · intro p hp
    have : (params.zip (args.zip vals)).map (fun p => (p.1, p.2.2)) = params.zip vals := by
      clear hacc hkeys h1 h2 h3 hlen hd hp
      induction params generalizing args vals with
      | nil => rfl
      | cons p ps ih =>
        cases args with
        | nil => cases hl
        | cons a as =>
          cases vals with
          | nil => cases hl'
          | cons v vs => simp only [List.zip_cons_cons, List.map_cons, ih (by simpa using hl) (by simpa using hl')]
    rw [← this] at hp
    obtain ⟨r, hr, rfl⟩ := List.mem_map.1 hp
    exact h2 r hr
  · intro k hk
    exact h3 k (by rw [hkeys]; exact hk)

/-- **C86 (`create` never works).** If an element with `minOccurs` 1 has no field, because it has a complex type in place,
then every call of `create` raises an exception. -/
theorem C86_create_never (hm : schemaToPy prefixes digest n parent d = .ok m)
    (he : execModule vars [] limit m = .ok (env, s)) (hd : (m.classes.map (·.name)).Nodup)
    (hT : moduleTable compile iso env s = some T)
    {ct : DComplex} (hct : ct ∈ d.complexTypes) {N : Str} (hn : ct.name = some N) {bs : List DContent} {dc : DContent}
    (hl : Layers prefixes d ct (bs ++ [dc])) (hp : ∀ c ∈ bs ++ [dc], PlainContent c) (hdist : (layerNames (bs ++ [dc])).Nodup)
    (hcr : py"create" ∉ layerNames (bs ++ [dc])) {e : DElement} (hmem : e ∈ dc.elements)
    (hmin : e.minOccurs = some 1 ∨ e.minOccurs = none) {x : Str} (hx : e.name = some x) (hfresh : pyName x ∉ layerNames (bs ++ [dc]))
    (K : Nat) (args : List Val) :
    ∃ ex, callCreate T K (env.idOf (capName N)) dc.createNames args = .error ex := by
  have himp := execModule_imported he
  obtain ⟨bs', dc', base, bparts, os, known, c, e', as, es, hlast, h, -, -, hbn, -⟩ := layers_class hm himp hd hl hct hn hp hdist hcr
  obtain ⟨rfl, this⟩ := List.append_inj' hlast rfl
  cases this
  have hcls := (cls_parts (moduleTable_class hT h.get)).1
  have hnames : (T (env.idOf (capName N))).fields.map (·.name) = layerNames (bs ++ [dc]) := by
    rw [field_names hcls, List.map_append, hbn, h.names (hp dc (by simp))]
    unfold layerNames
    simp
  have hpar : pyName x ∈ dc.createNames := by
    refine List.mem_map.2 ⟨x, List.mem_filterMap.2 ⟨e, List.mem_filter.2 ⟨hmem, decide_eq_true hmin⟩, hx⟩, rfl⟩
  cases hr : callCreate T K (env.idOf (capName N)) dc.createNames args with
  | error ex => exact ⟨ex, rfl⟩
  | ok v =>
    exfalso
    unfold callCreate at hr
    split at hr
    · rename_i hlen
      cases hnew : newInst T K (env.idOf (capName N)) with
      | error ex => rw [hnew] at hr; cases hr
      | ok w =>
        obtain ⟨fs, rfl⟩ := newInst_shape hnew
        rw [hnew] at hr
        obtain ⟨i, hi, hget⟩ := List.getElem_of_mem hpar
        have hmem : (dc.createNames[i], args[i]'(by omega)) ∈ dc.createNames.zip args := by
          rw [← List.getElem_zip (h := by rw [List.length_zip]; omega)]
          exact List.getElem_mem _
        obtain ⟨f, hf, hfn⟩ := setAttrs_fields hr _ hmem
        refine hfresh ?_
        rw [← hnames]
        exact List.mem_map.2 ⟨f, hf, by rw [hfn]; exact hget⟩
    · cases hr

/-- **C86 (new instances).** Once the module is imported, every class of a complex type can be called without arguments,
unless one of its fields has a type that accepts nothing. -/
theorem C86_instances (hm : schemaToPy prefixes digest n parent d = .ok m)
    (he : execModule vars [] limit m = .ok (env, s)) (hd : (m.classes.map (·.name)).Nodup)
    (hT : moduleTable compile iso env s = some T)
    {ct : DComplex} (hct : ct ∈ d.complexTypes) {N : Str} (hn : ct.name = some N) {cs : List DContent}
    (hl : Layers prefixes d ct cs) (hp : ∀ c ∈ cs, PlainContent c) (hdist : (layerNames cs).Nodup) (hcr : py"create" ∉ layerNames cs) :
    (∃ f ∈ (T (env.idOf (capName N))).fields, f.type = .any) ∨
    ∃ v, newInst T (limit + 1) (env.idOf (capName N)) = .ok v := by
  by_cases hany : ∃ f ∈ (T (env.idOf (capName N))).fields, f.type = .any
  · exact .inl hany
  · have himp := execModule_imported he
    obtain ⟨bs, dc, base, bparts, os, known, c, e', as, es, hlast, h, -⟩ := layers_class hm himp hd hl hct hn hp hdist hcr
    refine .inr (newInst_of_forced hT h.get (himp.forced _ h.listed) ?_)
    intro f hf
    refine ⟨fun ht => hany ⟨f, hf, ht⟩, ?_⟩
    obtain ⟨h2, h3⟩ := C86_split hm he hd hT hct hn hl hp hdist hcr
    intro hk
    have hf' : f ∈ (T (env.idOf (capName N))).fields.filter fun f => ¬ f.kind = .attribute :=
      List.mem_filter.2 ⟨hf, by rw [hk]; decide⟩
    obtain ⟨e, hem, ha⟩ := h3.mem_right hf'
    rcases elem_kind ha.1 (List.mem_filter.1 hem).2 with h | h <;> rw [h] at hk <;> cases hk

end

/-! ### Examples -/

namespace Ex

/-- A person with an identifier, names, parts, and an address whose type is declared in place. -/
def personDoc : DSchema where
  targetNamespace := some py"urn:p"
  elementFormDefault := some py"qualified"
  simpleTypes :=
    [{ name := some py"colour"
       restriction := some { base := some py"xs:string", enumerations := [some py"red", some py"blue"] } }]
  complexTypes :=
    [{ name := some py"part", content := { sequence := some [{ name := some py"size", type := some py"xs:int" }] } },
     { name := some py"person"
       content := { sequence := some
                      [{ name := some py"class", type := some py"p:colour", nillable := true },
                       { name := some py"part", type := some py"p:part", minOccurs := some 0, maxOccurs := some .unbounded },
                       { name := some py"best", type := some py"p:part", minOccurs := some 0 },
                       { name := some py"age", simpleType := some { restriction := some { base := some py"xs:int" } } }]
                    attributes := [{ name := some py"id", type := some py"xs:string", use := some py"required" }] } },
     { name := some py"house"
       content := { sequence := some [{ name := some py"number", type := some py"xs:int" }, { name := some py"address" }] } }]

theorem house_plain : PlainContent (personDoc.complexTypes[2]).content := by
  refine ⟨rfl, ?_, ?_⟩
  · intro a h; cases h
  · intro e h
    rcases List.mem_cons.1 h with rfl | h
    · decide
    · rcases List.mem_cons.1 h with rfl | h
      · decide
      · cases h

/-- The fields of a class and what `create` does: for `Person` it works, for `House` it never does. -/
example : ∃ m env s T, schemaToPy [some py"xs"] (fun _ => py"01234") 5 none personDoc = .ok m ∧
    execModule [] [] 10 m = .ok (env, s) ∧
    moduleTable (fun _ => intPattern) (fun _ => .error .valueError) env s = some T ∧
    (T (env.idOf py"Person")).fields.map (fun f => (f.name, f.tag, f.required)) =
      [(py"id", py"id", true), (py"_class", py"class", true), (py"part", py"part", true), (py"best", py"best", false),
       (py"age", py"age", true)] ∧
    callCreate T 3 (env.idOf py"Person") [py"_class", py"age"] [.atom (.str py"red"), .atom (.int 7)] =
      .ok (.inst (env.idOf py"Person") [(py"id", Val.none), (py"_class", .atom (.str py"red")), (py"part", .list true []),
        (py"best", Val.none), (py"age", .atom (.int 7))] none) ∧
    callCreate T 3 (env.idOf py"Person") [py"_class", py"age"] [.atom (.str py"green"), .atom (.int 7)] = .error .valueError ∧
    ∀ K args, ∃ ex, callCreate T K (env.idOf py"House") [py"number", py"address"] args = .error ex := by
  refine ⟨_, _, _, _, rfl, rfl, rfl, rfl, rfl, rfl, fun K args => ?_⟩
  exact C86_create_never (prefixes := [some py"xs"]) (digest := fun _ => py"01234") (n := 5) (parent := none)
    (d := personDoc) (vars := []) (limit := 10) (compile := fun _ => intPattern) (iso := fun _ => .error .valueError)
    rfl rfl (by decide) rfl (ct := personDoc.complexTypes[2]) (by decide)
    (N := py"house") rfl (bs := []) (dc := (personDoc.complexTypes[2]).content)
    (.own rfl) (fun c hc => by rw [List.mem_singleton.1 hc]; exact house_plain) (by decide) (by decide) (e := { name := some py"address" }) (by decide) (.inr rfl)
    (x := py"address") rfl (by decide) K args

end Ex

end Soapfish
