import Verif.ReferencesLemmas
import Verif.Props.CodeFields
/-
References, groups and lists in generated code: C106.
-/
set_option maxRecDepth 8000
namespace Soapfish

section
variable {prefixes : List (Option Str)} {digest : Str → Str} {n limit : Nat} {parent : Option Str} {d : DSchema}
  {m : PyModule} {vars : SchemaVars} {env : PyEnv} {s : GSchema} {compile : Str → Pattern} {iso : Iso} {T : Table}

/-- **C106 (definitions).** Code generated for a document can be imported only if each name a complex type refers to, be it
a type, an element, an attribute or a group of attributes, belongs to a definition that gets a class. -/
theorem C106_defined (hm : schemaToPy prefixes digest n parent d = .ok m) (he : execModule vars [] limit m = .ok (env, s))
    (hd : (m.classes.map (·.name)).Nodup) (ho : m.OneEach) {ct : DComplex} (hct : ct ∈ d.complexTypes)
    (hc : ct.complexContent = none) {q l : Str} {p : Option Str} (hr : RefersBy ct.content q) (hq0 : q ≠ [])
    (hq : Qualified q p l) (hp : p ∉ prefixes) : GivesClass d (capName l) := by
  have himp := execModule_imported he
  obtain ⟨c, cs, hname, -⟩ := C86_named hm hct
  obtain ⟨known, e, os, as, gs, es, h⟩ := plain_class hm himp hd ho hct hc hname
  have key : ∀ (src : TypeSource) (r : PyRef) (f : PyField), src.qname = .ok q → pyRef prefixes known src = .ok r →
      f ∈ as ++ gs ++ es.flatten → ((∃ a b c, f = .attribute a r b c) ∨ (∃ a, f = .ref a r) ∨
        (∃ a b c d, f = .element a r b c d) ∨ ∃ a b c d g, f = .list a r b c d g) → GivesClass d (capName l) := by
    intro src r f hs hr hf hk
    obtain ⟨x, hx, _, bound, _, hex⟩ := h.exec.mem_left hf
    obtain ⟨o, hg, _⟩ := evaluated_ref hs hq hp hr (execField_type hex hk) h.mono (h.evaluated x hx)
    rcases execClasses_bound himp.classes _ _ hg with hn | hn
    · obtain ⟨c, hc, hcn⟩ := List.mem_map.1 hn
      exact hcn ▸ class_given hm hc
    · cases hn
  cases hr with
  | @attributeRef a ha hra =>
    obtain ⟨f, hf, h1⟩ := h.attrs.mem_left ha
    unfold attributeField at h1
    obtain ⟨r, h2, h1⟩ := bind_eq_ok.1 h1
    obtain ⟨_, _, h1⟩ := bind_eq_ok.1 h1
    rw [hra] at h2
    exact key _ r f (item_ref hq0) h2 (List.mem_append_left _ (List.mem_append_left _ hf))
      (.inl ⟨_, _, _, (Except.ok.inj h1).symm⟩)
  | @attributeType a ha hra hta =>
    obtain ⟨f, hf, h1⟩ := h.attrs.mem_left ha
    unfold attributeField at h1
    obtain ⟨r, h2, h1⟩ := bind_eq_ok.1 h1
    obtain ⟨_, _, h1⟩ := bind_eq_ok.1 h1
    rw [hra, hta] at h2
    exact key _ r f (item_type hq0) h2 (List.mem_append_left _ (List.mem_append_left _ hf))
      (.inl ⟨_, _, _, (Except.ok.inj h1).symm⟩)
  | attributeGroup hg =>
    obtain ⟨f, hf, h1⟩ := h.groups.mem_left hg
    unfold attributeGroupRef at h1
    obtain ⟨r, h2, h1⟩ := bind_eq_ok.1 h1
    refine key (.text q) r f ?_ h2 (List.mem_append_left _ (List.mem_append_right _ hf)) (.inr (.inl ⟨_, (Except.ok.inj h1).symm⟩))
    cases q with
    | nil => exact absurd rfl hq0
    | cons => rfl
  | @elementRef x hx hra =>
    obtain ⟨fs, hfs, h1⟩ := h.elems.mem_left hx
    obtain ⟨r, h2, h3⟩ := ref_field h1 hra hq0
    exact key _ r _ (item_ref hq0) h2 (List.mem_append_right _ (List.mem_flatten.2 ⟨fs, hfs, h3⟩)) (.inr (.inl ⟨_, rfl⟩))
  | @elementType x hx hra hta =>
    obtain ⟨fs, hfs, h1⟩ := h.elems.mem_left hx
    obtain ⟨r, h2, f, h3, h4⟩ := type_field h1 hra hta hq0
    exact key _ r f (item_type hq0) h2 (List.mem_append_right _ (List.mem_flatten.2 ⟨fs, hfs, h3⟩)) (.inr (.inr h4))

/-- The fields of the elements of a content. -/
theorem elements_give (hm : schemaToPy prefixes digest n parent d = .ok m) (he : Imported m limit env s)
    (hex : execModule vars [] limit m = .ok (env, s)) (hd : (m.classes.map (·.name)).Nodup) (ho : m.OneEach) {known : List Str} {e : PyEnv}
    {els : List DElement} {pfs : List (List PyField)}
    (h : All2 (fun x f => elementFields prefixes known x = .ok f) els pfs) (hi : ∀ pf ∈ pfs.flatten, isIdent pf.target = true)
    (mono : ∀ n x, e.get n = some x → env.get n = some x) : ∀ {ps : List (Str × FieldObj)} {fs : List Field},
    All2 (fun f p => p.1 = f.target ∧ ∃ bound, py"xsd" ∉ bound ∧ execField e bound f = .ok p.2) pfs.flatten ps →
    (∀ p ∈ ps, evaluateUse env limit (FieldObj.type p.2) = .ok ()) →
    All2 (fun p f => FieldObj.field compile iso env p.1 p.2 = some f) ps fs →
    ∃ es, fs = es.flatten ∧ All2 (ElementGives prefixes d env compile iso) els es := by
  induction h with
  | nil =>
    intro ps fs h1 _ h3
    cases h1
    cases h3
    exact ⟨[], rfl, .nil⟩
  | cons h0 _ ih =>
    intro ps fs h1 h2 h3
    rw [List.flatten_cons] at h1 hi
    obtain ⟨x, y, rfl, h4, h5⟩ := h1.split
    obtain ⟨u, v, rfl, h6, h7⟩ := h3.split
    obtain ⟨es, rfl, h8⟩ := ih (fun pf hpf => hi pf (List.mem_append_right _ hpf)) h5
      (fun p hp => h2 p (List.mem_append_right _ hp)) h7
    exact ⟨u :: es, rfl, .cons (element_gives hm he hex hd ho h0 (fun pf hpf => hi pf (List.mem_append_left _ hpf)) h4 mono
      (fun p hp => h2 p (List.mem_append_left _ hp)) h6) h8⟩

/-- **C106 (fields).** The class for a complex type has one field for each attribute, be it its own or a reference, then one
for each group of attributes, then those for the elements: own ones and references. -/
theorem C106_fields (hm : schemaToPy prefixes digest n parent d = .ok m) (he : execModule vars [] limit m = .ok (env, s))
    (hd : (m.classes.map (·.name)).Nodup) (ho : m.OneEach) (hT : moduleTable compile iso env s = some T)
    {ct : DComplex} (hct : ct ∈ d.complexTypes) (hc : ct.complexContent = none) {N : Str} (hn : ct.name = some N) :
    ∃ as gs es, (T (env.idOf (capName N))).fields = as ++ gs ++ es.flatten ∧
      All2 (AttributeGives prefixes d env compile iso) ct.content.attributes as ∧
      All2 (fun g f => ∀ q p l, g = some q → q ≠ [] → Qualified q p l → p ∉ prefixes → RefField d env l f)
        ct.content.attributeGroups gs ∧
      All2 (ElementGives prefixes d env compile iso) ct.content.elements es := by
  have himp := execModule_imported he
  obtain ⟨known, e, os, as, gs, es, h⟩ := plain_class hm himp hd ho hct hc hn
  obtain ⟨i, hget⟩ := h.get
  have hcls := (cls_parts (moduleTable_class hT hget)).1
  simp only at hcls
  generalize (T (env.idOf (capName N))).fields = fs at hcls ⊢
  have hex := h.exec
  obtain ⟨x, y, hxy, h1, h2⟩ := hex.split
  obtain ⟨x1, x2, rfl, h3, h4⟩ := h1.split
  subst hxy
  obtain ⟨f1, f3, rfl, g1, g2⟩ := hcls.split
  obtain ⟨f1, f2, rfl, g3, g4⟩ := g1.split
  obtain ⟨es', rfl, g5⟩ := elements_give hm himp he hd ho h.elems
    (fun pf hpf => h.idents pf (List.mem_append_right _ hpf)) h.mono h2
    (fun p hp => h.evaluated p (List.mem_append_right _ hp)) g2
  refine ⟨f1, f2, es', rfl, ?_, ?_, g5⟩
  · refine ((h.attrs.mem).comp (h3.comp g3)).imp ?_
    rintro a f ⟨pf, ⟨_, hpf, hat⟩, p, ⟨ht, bound, _, hx⟩, hf⟩
    exact attribute_gives hm himp he hd hat (h.idents pf (List.mem_append_left _ (List.mem_append_left _ hpf))) ht hx h.mono hf
  · refine (h.groups.comp (h4.mem.comp g4)).imp ?_
    rintro g f ⟨pf, hg, p, ⟨_, hpm, ht, bound, _, hx⟩, hf⟩ q p' l rfl hq0 hq hp
    unfold attributeGroupRef at hg
    obtain ⟨r, h5, hg⟩ := bind_eq_ok.1 hg
    have hpf := (Except.ok.inj hg).symm
    subst hpf
    refine ref_means hm himp hd ho (src := .text q) (q := q) ?_ hq hp h5 ?_ ht hx h.mono
      (h.evaluated p (List.mem_append_left _ (List.mem_append_right _ hpm))) hf
    · cases q with
      | nil => exact absurd rfl hq0
      | cons => rfl
    · unfold localPart
      rw [nonEmpty_of rfl hq0]
      exact lastPart_local hq

/-- **C106 (groups).** A group of attributes becomes a class that is a group, with one field for each attribute. -/
theorem C106_attributeGroup (hm : schemaToPy prefixes digest n parent d = .ok m) (he : execModule vars [] limit m = .ok (env, s))
    (hd : (m.classes.map (·.name)).Nodup) (ho : m.OneEach) (hT : moduleTable compile iso env s = some T)
    {g : Option Str × List DAttribute} (hg : g ∈ d.attributeGroups) {N : Str} (hn : g.1 = some N) :
    (T (env.idOf (capName N))).name = capName N ∧ (T (env.idOf (capName N))).isGroup = true ∧
    All2 (AttributeGives prefixes d env compile iso) g.2 (T (env.idOf (capName N))).fields := by
  have himp := execModule_imported he
  obtain ⟨cts, r, ag, gs, cs, ts, -, -, h3, -, -, -, h7⟩ := schemaToPy_parts hm
  obtain ⟨c, hc, h8⟩ := (mapE_all2 h3).mem_left hg
  have hcm : c ∈ m.classes := by rw [h7]; simp [hc]
  unfold attributeGroupClass at h8
  obtain ⟨N', h9, h8⟩ := bind_eq_ok.1 h8
  obtain ⟨fs, h10, h8⟩ := bind_eq_ok.1 h8
  rw [hn] at h9
  rw [capitalizeO_some h9] at h8
  have hcn : c.name = capName N := by rw [← Except.ok.inj h8]
  have hcf : c.fields = fs := by rw [← Except.ok.inj h8]
  obtain ⟨i, e, os, h11, h12, h13⟩ := class_object himp hd ho hcm (b := py"AttributeGroup") (by rw [← Except.ok.inj h8]) (.inr (.inr rfl))
  rw [hcn] at h11
  have hcls := cls_parts (moduleTable_class hT h11)
  refine ⟨cls_name (moduleTable_class hT h11), hcls.2.2.2.2.1, ?_⟩
  refine ((mapE_all2 h10).mem.comp ((hcf ▸ h12).comp hcls.1)).imp ?_
  rintro a f ⟨pf, ⟨_, hpf, hat⟩, p, ⟨ht, bound, _, hx⟩, hf⟩
  exact attribute_gives hm himp he hd hat (checked_field himp.check hcm (hcf ▸ hpf)) ht hx h13 hf

/-- **C106 (groups).** A group of elements becomes a class that is a group, with one required field for each element, whatever
the document says on how often it occurs. -/
theorem C106_group (hm : schemaToPy prefixes digest n parent d = .ok m) (he : execModule vars [] limit m = .ok (env, s))
    (hd : (m.classes.map (·.name)).Nodup) (ho : m.OneEach) (hT : moduleTable compile iso env s = some T)
    {g : Option Str × List DElement} (hg : g ∈ d.groups) {N : Str} (hn : g.1 = some N) :
    (T (env.idOf (capName N))).name = capName N ∧ (T (env.idOf (capName N))).isGroup = true ∧
    All2 (fun e f => ∀ nm q p, e.ref = none ∧ e.name = some nm ∧ e.type = some q ∨ e.ref = some q ∧ Qualified q p nm → q ≠ [] →
      ElemField { name := some nm, type := some q } f ∧ TypeMeans prefixes d env compile iso q f.type)
      g.2 (T (env.idOf (capName N))).fields := by
  have himp := execModule_imported he
  obtain ⟨cts, r, ag, gs, cs, ts, -, -, -, h3, -, -, h7⟩ := schemaToPy_parts hm
  obtain ⟨c, hc, h8⟩ := (mapE_all2 h3).mem_left hg
  have hcm : c ∈ m.classes := by rw [h7]; simp [hc]
  unfold groupClass at h8
  obtain ⟨N', h9, h8⟩ := bind_eq_ok.1 h8
  obtain ⟨fs, h10, h8⟩ := bind_eq_ok.1 h8
  rw [hn] at h9
  rw [capitalizeO_some h9] at h8
  have hcn : c.name = capName N := by rw [← Except.ok.inj h8]
  have hcf : c.fields = fs := by rw [← Except.ok.inj h8]
  obtain ⟨i, e, os, h11, h12, h13⟩ := class_object himp hd ho hcm (b := py"Group") (by rw [← Except.ok.inj h8]) (.inr (.inl rfl))
  rw [hcn] at h11
  have hcls := cls_parts (moduleTable_class hT h11)
  refine ⟨cls_name (moduleTable_class hT h11), hcls.2.2.2.2.1, ?_⟩
  refine ((mapE_all2 h10).mem.comp ((hcf ▸ h12).comp hcls.1)).imp ?_
  rintro x f ⟨pf, ⟨_, hpf, hat⟩, p, ⟨ht, bound, _, hx⟩, hf⟩ nm q p' hnm hq0
  have hel : elementFields prefixes r.2 { name := some nm, type := some q } = .ok [pf] := groupField_as hat hnm hq0
  obtain ⟨_, h14, h15⟩ := elem_field hel List.mem_cons_self
    ⟨rfl, rfl, fun h => hq0 (Option.some.inj h), fun h => nomatch h.2⟩
    (checked_field himp.check hcm (hcf ▸ hpf)) ht hx hf
  obtain ⟨r', u, h6, h7, h8, h9⟩ := h15 q rfl
  exact ⟨h14, typeMeans hm himp he hd h6 h7 h8 h9 h13⟩

/-- **C106 (lists).** A type that is a list is of no use: no instance of a class with an attribute of this type, or an element
that occurs at most once, can ever be created. -/
theorem C106_list (hm : schemaToPy prefixes digest n parent d = .ok m) (he : execModule vars [] limit m = .ok (env, s))
    (hd : (m.classes.map (·.name)).Nodup) (ho : m.OneEach) (hT : moduleTable compile iso env s = some T)
    {st : DSimple} (hst : st ∈ d.simpleTypes) (hl : st.list = true) {L : Str} (hL : st.name = some L)
    {ct : DComplex} (hct : ct ∈ d.complexTypes) (hc : ct.complexContent = none) {N : Str} (hn : ct.name = some N)
    {q l : Str} {p : Option Str} (hq : Qualified q p l) (hq0 : q ≠ []) (hp : p ∉ prefixes) (hll : capName l = capName L)
    (hu : (∃ a ∈ ct.content.attributes, a.ref = none ∧ a.type = some q) ∨
      ∃ e ∈ ct.content.elements, e.ref = none ∧ e.type = some q ∧ ¬ e.Many) :
    ∀ k v, newInst T k (env.idOf (capName N)) ≠ .ok v := by
  have himp := execModule_imported he
  obtain ⟨known, e, os, as, gs, es, h⟩ := plain_class hm himp hd ho hct hc hn
  obtain ⟨i, hget⟩ := h.get
  have hcls := (cls_parts (moduleTable_class hT hget)).1
  have hlist := list_object hm himp hd hst hl hL
  have key : ∀ (r : PyRef) (f : PyField) (b : Bool), pyRef prefixes known (.item none (some q) b) = .ok r → f ∈ as ++ gs ++ es.flatten →
      ((∃ a b c, f = .attribute a r b c) ∨ ∃ a b c d, f = .element a r b c d) →
      ∀ k v, newInst T k (env.idOf (capName N)) ≠ .ok v := by
    intro r f b hr hf hk
    obtain ⟨x, hx, _, bound, _, hex⟩ := h.exec.mem_left hf
    obtain ⟨fl, hfl, hfield⟩ := hcls.mem_left hx
    obtain ⟨o, hg, htar⟩ := evaluated_ref (item_type hq0) hq hp hr
      (execField_type hex (hk.elim .inl fun h => .inr (.inr (.inl h)))) h.mono (h.evaluated x hx)
    rw [hll, hlist] at hg
    obtain rfl := Option.some.inj hg
    obtain ⟨_, h2, _, h3, h4⟩ := field_parts hfield
    refine newInst_any hfl ?_ ?_ h4
    · unfold TypeUse.ftype at h2
      rw [htar] at h2
      exact (Option.some.inj h2).symm
    · intro hkind
      obtain ⟨u, t, a, b, c, hxo⟩ := h3.1 hkind
      rw [hxo] at hex
      unfold execField at hex
      split at hex
      · cases hex
      rcases hk with ⟨_, _, _, rfl⟩ | ⟨_, _, _, _, rfl⟩
      · simp only at hex
        obtain ⟨_, _, hex⟩ := bindI hex
        obtain ⟨_, _, hex⟩ := bindI hex
        cases hex
      · simp only at hex
        obtain ⟨_, _, hex⟩ := bindI hex
        obtain ⟨_, _, hex⟩ := bindI hex
        split at hex <;> cases hex
  rcases hu with ⟨a, ha, hra, hta⟩ | ⟨x, hx, hrx, htx, hmx⟩
  · obtain ⟨f, hf, h1⟩ := h.attrs.mem_left ha
    unfold attributeField at h1
    obtain ⟨r, h2, h1⟩ := bind_eq_ok.1 h1
    obtain ⟨_, _, h1⟩ := bind_eq_ok.1 h1
    rw [hra, hta] at h2
    exact key r f _ h2 (List.mem_append_left _ (List.mem_append_left _ hf)) (.inl ⟨_, _, _, (Except.ok.inj h1).symm⟩)
  · obtain ⟨fs, hfs, h1⟩ := h.elems.mem_left hx
    obtain ⟨r, h2, a, b, c, d, h3⟩ := single_field h1 hrx htx hq0 hmx
    exact key r _ _ h2 (List.mem_append_right _ (List.mem_flatten.2 ⟨fs, hfs, h3⟩)) (.inr ⟨_, _, _, _, rfl⟩)

end

namespace Ex

/-- A note for a person, with attributes from a group; tags are a list. -/
def noteDoc : DSchema where
  targetNamespace := some py"urn:n"
  simpleTypes := [{ name := some py"tags", list := true }]
  attributeGroups := [(some py"common", [{ name := some py"class", type := some py"xs:string", use := some py"required" }])]
  groups := [(some py"times", [{ name := some py"begin", type := some py"xs:int", minOccurs := some 0 }])]
  complexTypes :=
    [{ name := some py"note"
       content := { sequence := some [{ ref := some py"n:person" }, { name := some py"text", type := some py"xs:string" }]
                    attributeGroups := [some py"n:common"] } },
     { name := some py"labels", content := { attributes := [{ name := some py"tags", type := some py"n:tags" }] } }]
  elements :=
    [{ name := some py"person"
       complexType := some { content := { sequence := some [{ name := some py"name", type := some py"xs:string" }] } } }]

/-- The classes of this document: notes refer to persons and to the group, whose attribute is required, and no labels can ever
be created. -/
example : ∃ m env s T, schemaToPy [some py"xs"] (fun _ => py"01234") 5 none noteDoc = .ok m ∧
    execModule [] [] 10 m = .ok (env, s) ∧
    moduleTable (fun _ => intPattern) (fun _ => .error .valueError) env s = some T ∧
    (T (env.idOf py"Note")).fields.map (fun f => (f.name, f.kind, f.type)) =
      [(py"common", .ref, .complex (env.idOf py"Common")), (py"person", .ref, .complex (env.idOf py"Person")),
       (py"text", .element, .simple (.string {}))] ∧
    (T (env.idOf py"Common")).fields.map (fun f => (f.name, f.tag, f.required)) = [(py"_class", py"class", true)] ∧
    (T (env.idOf py"Common")).isGroup = true ∧ (T (env.idOf py"Person")).isGroup = false ∧
    (T (env.idOf py"Times")).fields.map (fun f => (f.name, f.required)) = [(py"begin", true)] ∧
    (∃ v, newInst T 3 (env.idOf py"Note") = .ok v) ∧
    ∀ k v, newInst T k (env.idOf py"Labels") ≠ .ok v := by
  refine ⟨_, _, _, _, rfl, rfl, rfl, rfl, rfl, rfl, rfl, rfl, ⟨_, rfl⟩, ?_⟩
  exact C106_list (prefixes := [some py"xs"]) (digest := fun _ => py"01234") (n := 5) (parent := none)
    (d := noteDoc) (vars := []) (limit := 10) (compile := fun _ => intPattern) (iso := fun _ => .error .valueError)
    rfl rfl (by decide) (by unfold PyModule.OneEach; decide) rfl (st := noteDoc.simpleTypes[0]) (by decide) rfl (L := py"tags") rfl
    (ct := noteDoc.complexTypes[1]) (by decide) rfl (N := py"labels") rfl
    (q := py"n:tags") (p := some py"n") (l := py"tags") (.prefixed (p := py"n") (l := py"tags") (by decide) (by decide)) (by decide) (by decide) rfl
    (.inl ⟨_, List.mem_cons_self, rfl, rfl⟩)

/-- An attribute taken over from the XML namespace: code is generated, but importing it fails. -/
def langDoc : DSchema where
  targetNamespace := some py"urn:n"
  complexTypes := [{ name := some py"note", content := { attributes := [{ ref := some py"xml:lang" }] } }]

/-- A reference to an element whose type has a name. -/
def refDoc : DSchema where
  targetNamespace := some py"urn:n"
  complexTypes :=
    [{ name := some py"personType", content := { sequence := some [{ name := some py"name", type := some py"xs:string" }] } },
     { name := some py"note", content := { sequence := some [{ ref := some py"n:person" }] } }]
  elements := [{ name := some py"person", type := some py"n:personType" }]

theorem lang_none : ¬ GivesClass langDoc py"Lang" := by
  intro h
  cases h with
  | simple h => cases h
  | attributeGroup h => cases h
  | group h => cases h
  | complex h h1 h2 =>
    rcases List.mem_singleton.1 h with rfl
    cases h1
    exact absurd h2 (by decide)
  | element h => cases h

/-- Neither can be imported: with any limit and any modules for other schemas, importing fails. -/
example : (∃ m, schemaToPy [some py"xs"] (fun _ => py"01234") 5 none langDoc = .ok m ∧
      ∀ vars limit r, execModule vars [] limit m ≠ .ok r) ∧
    ∃ m, schemaToPy [some py"xs"] (fun _ => py"01234") 5 none refDoc = .ok m ∧
      execModule [] [] 10 m = .error (.raised .attributeError) := by
  refine ⟨⟨_, rfl, fun vars limit r he => ?_⟩, _, rfl, rfl⟩
  exact lang_none (C106_defined (prefixes := [some py"xs"]) (digest := fun _ => py"01234") (n := 5) (parent := none)
    (d := langDoc) rfl he (by decide) (by unfold PyModule.OneEach; decide)
    (ct := langDoc.complexTypes[0]) (by decide) rfl (q := py"xml:lang") (p := some py"xml") (l := py"lang")
    (.attributeRef List.mem_cons_self rfl) (by decide) (.prefixed (p := py"xml") (l := py"lang") (by decide) (by decide)) (by decide))

end Ex

end Soapfish
