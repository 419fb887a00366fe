import Verif.Props.CodeFields
import Verif.Props.Render
/-
Complex types that are derived by restriction in generated code (soapfish/templates/lib.jinja2:97-101).
-/
set_option maxRecDepth 8000
namespace Soapfish

section
variable {prefixes : List (Option Str)} {digest : Str → Str} {n limit : Nat} {parent : Option Str} {d : DSchema}
  {m : PyModule} {vars : SchemaVars} {env : PyEnv} {s : GSchema} {compile : Str → Pattern} {iso : Iso} {T : Table}

theorem complexClass_restriction {known : List Str} {n q : Str} {c : DContent} {ct : DComplex} {cls : PyClassDef}
    (hc : ct.complexContent = some { restriction := some (some q, c) }) (hn : ct.name = some n)
    (h : complexClass prefixes known (some n) ct = .ok cls) :
    ∃ b, pyRef prefixes known (.derived (some q)) = .ok b ∧ complexBody prefixes known (capName n) b c = .ok cls := by
  unfold complexClass at h
  rw [hc] at h
  simp only [bind, Except.bind, hn] at h
  cases hn' : capitalizeO (some n) with
  | error e => rw [hn'] at h; cases h
  | ok m =>
    rw [hn'] at h
    simp only at h
    rw [← capitalizeO_some hn']
    cases hb : pyRef prefixes known (.derived (some q)) with
    | error e => rw [hb] at h; cases h
    | ok b => rw [hb] at h; exact ⟨b, rfl, h⟩

/-- What a class statement on top of a complex type class leaves, if no name occurs twice in its body. -/
theorem execClass_over {env env' : PyEnv} {c : PyClassDef} {o : ComplexObj} (hb : baseClass env c.base = .ok (.complex o))
    (hd : (c.fields.map PyField.target).Nodup) (hcr : py"create" ∉ o.fields.map (·.1) ++ c.fields.map PyField.target)
    (h : execClass env c = .ok env') :
    ∃ os, env' = (c.name, .complex { name := c.name, indicator := c.indicator.getD o.indicator
                                     fields := o.fields.filter (fun p => p.1 ∉ c.fields.map PyField.target) ++ os
                                     bases := c.name :: o.bases, group := o.group }) :: env ∧
      All2 (fun f p => p.1 = f.target ∧ ∃ bound, py"xsd" ∉ bound ∧ execField env bound f = .ok p.2) c.fields os := by
  unfold execClass at h
  rw [hb] at h
  simp only [bind, Except.bind] at h
  cases h1 : evalEnumeration c.enumeration with
  | error e => rw [h1] at h; cases h
  | ok a =>
    cases h2 : evalFacets c.facets with
    | error e => rw [h1, h2] at h; cases h
    | ok b =>
      cases h3 : execFields env [] c.fields with
      | error e => rw [h1, h2, h3] at h; cases h
      | ok f =>
        obtain ⟨os, hf, hall⟩ := execFields_all2 h3 (by simpa using hd)
        rw [List.nil_append] at hf
        subst hf
        cases h4 : execCreate f c.create with
        | error e => rw [h1, h2, h3] at h; simp only [h4] at h; cases h
        | ok g =>
          rw [h1, h2, h3] at h
          simp only [h4] at h
          have hg : g = f := execCreate_plain h4 (by
            rw [all2_targets hall]; exact fun hm => hcr (List.mem_append_right _ hm))
          subst hg
          have hin : inheritFields o.fields g c.create.isSome = o.fields.filter (fun p => p.1 ∉ c.fields.map PyField.target) ++ g := by
            unfold inheritFields
            rw [all2_targets hall]
            congr 1
            refine List.filter_congr fun p hp => ?_
            have : p.1 ≠ py"create" := fun hm => hcr (List.mem_append_left _ (List.mem_map.2 ⟨p, hp, hm⟩))
            simp [this]
          rw [hin] at h
          exact ⟨g, (Except.ok.inj h).symm, hall⟩

theorem filter_fields {names : List Str} {os : List (Str × FieldObj)} {fs : List Field}
    (h : All2 (fun p f => FieldObj.field compile iso env p.1 p.2 = some f) os fs) :
    All2 (fun p f => FieldObj.field compile iso env p.1 p.2 = some f) (os.filter fun p => p.1 ∉ names) (fs.filter fun f => f.name ∉ names) := by
  induction h with
  | nil => exact .nil
  | @cons p f os fs h1 _ ih =>
    have hn := (field_name h1).1
    by_cases hm : p.1 ∈ names
    · rw [List.filter_cons_of_neg (by simpa using hm), List.filter_cons_of_neg (by rw [hn]; simpa using hm)]
      exact ih
    · rw [List.filter_cons_of_pos (by simpa using hm), List.filter_cons_of_pos (by rw [hn]; simpa using hm)]
      exact .cons h1 ih

theorem field_all2_unique {os : List (Str × FieldObj)} {fs gs : List Field}
    (h : All2 (fun p f => FieldObj.field compile iso env p.1 p.2 = some f) os fs) (h' : All2 (fun p f => FieldObj.field compile iso env p.1 p.2 = some f) os gs) :
    fs = gs := by
  induction h generalizing gs with
  | nil => cases h'; rfl
  | cons h1 _ ih =>
    cases h' with
    | cons h2 h3 =>
      rw [h1] at h2
      injection h2 with h2
      rw [h2, ih h3]

/-- **C127 (fields).** The class for a complex type that restricts another has all fields of the class of the other one, except those with
names that the restriction repeats, then its own. -/
theorem C127_fields (hm : schemaToPy prefixes digest n parent d = .ok m) (he : execModule vars [] limit m = .ok (env, s))
    (hd : (m.classes.map (·.name)).Nodup) (hT : moduleTable compile iso env s = some T)
    {ct base : DComplex} (hct : ct ∈ d.complexTypes) {N : Str} (hn : ct.name = some N) {q : Str} {c : DContent}
    (hc : ct.complexContent = some { restriction := some (some q, c) }) {p : Option Str} {l : Str} (hq : Qualified q p l) (hpp : p ∉ prefixes)
    (hbase : base ∈ d.complexTypes) (hbn : base.name = some l) {cs : List DContent} (hl : Layers prefixes d base cs)
    (hp : ∀ c ∈ cs, PlainContent c) (hdist : (layerNames cs).Nodup) (hcr : py"create" ∉ layerNames cs)
    (hpc : PlainContent c) (hcd : c.fieldNames.Nodup) (hccr : py"create" ∉ c.fieldNames) :
    ∃ as es, (T (env.idOf (capName N))).fields = (T (env.idOf (capName l))).fields.filter (fun f => f.name ∉ c.fieldNames) ++ (as ++ es) ∧
      All2 (fun a f => AttrField a f ∧ ∀ q, a.type = some q → q ≠ [] → TypeMeans prefixes d env compile iso q f.type)
        c.attributes as ∧
      All2 (fun e f => ElemField e f ∧ ∀ q, e.type = some q → TypeMeans prefixes d env compile iso q f.type)
        (c.elements.filter (·.typed)) es := by
  have himp := execModule_imported he
  obtain ⟨bs0, c0, base0, parts0, os0, known0, cls0, e0, as0, es0, hcs, hL0, hg0, hf0, hn0, hall0, hi0, -⟩ :=
    layers_class hm himp hd hl hbase hbn hp hdist hcr
  have hp0 : PlainContent c0 := hp c0 (by rw [hcs]; simp)
  have hbf : (base0.fields ++ os0).map (·.1) = layerNames cs := by
    rw [List.map_append, hn0, hL0.names hp0, hcs]; unfold layerNames; simp
  obtain ⟨known, cls, M, h1, h2, h3, h4⟩ := schemaToPy_complex hm hct
  rw [hn] at h1 h3
  obtain ⟨ref, hr1, hr2⟩ := complexClass_restriction hc hn h1
  obtain ⟨b1, b2, b3, b4, -, -, as, gs, es, b5, b6, b7, b8⟩ := complexBody_eq hr2
  rw [hpc.groups] at b6
  cases b6
  rw [List.append_nil] at b8
  rw [contentElements_elements] at b7
  have htar : cls.fields.map PyField.target = c.fieldNames := by rw [b8, content_targets hpc b5 b7]
  obtain ⟨e, o, e1, e2, e3⟩ := execClasses_mem himp.classes hd (fun _ _ => rfl) cls h2
  have hb : baseClass e cls.base = .ok (.complex { name := capName l, indicator := cls0.indicator.getD base0.indicator
                                                   fields := base0.fields ++ os0, bases := capName l :: base0.bases
                                                   group := base0.group }) := by
    rw [b2]
    cases hx : baseClass e ref with
    | error er => unfold execClass at e1; rw [b2, hx] at e1; cases e1
    | ok o' => rw [base_of_name hr1 hq hpp e3 hx hL0.get]
  obtain ⟨os, e4, e5⟩ := execClass_over hb (by rw [htar]; exact hcd)
    (by rw [htar]; intro h; rcases List.mem_append.1 h with h | h
        · rw [hbf] at h; exact hcr h
        · exact hccr h) e1
  have ho := (Prod.mk.inj (List.cons.inj e4).1).2
  subst ho
  rw [b1] at e2
  rw [htar] at e2
  have hLC : LayerClass prefixes c N m env known cls e
      { name := capName l, indicator := cls0.indicator.getD base0.indicator, fields := (base0.fields ++ os0).filter (fun p => p.1 ∉ c.fieldNames)
        bases := capName l :: base0.bases, group := base0.group } os as es :=
    ⟨h2, by rw [← capitalizeO_some h3]; exact h4, b1, b4, b5, b7, b8, e2, e5, e3, b3⟩
  have hcls := (cls_parts (moduleTable_class hT e2)).1
  have hcls0 := filter_fields (names := c.fieldNames) (cls_parts (moduleTable_class hT hL0.get)).1
  obtain ⟨x, y, hxy, hx, hy⟩ := hcls.split
  obtain ⟨as', es', rfl, g1, g2⟩ := layer_fields hm he hd hLC hpc hy
  refine ⟨as', es', ?_, g1, g2⟩
  rw [hxy, field_all2_unique hx hcls0]

/-- **C127 (left out).** So elements that the restriction leaves out are not forbidden: they are read like those of the base type, -/
theorem C127_left_out (hm : schemaToPy prefixes digest n parent d = .ok m) (he : execModule vars [] limit m = .ok (env, s))
    (hd : (m.classes.map (·.name)).Nodup) (hT : moduleTable compile iso env s = some T)
    {ct base : DComplex} (hct : ct ∈ d.complexTypes) {N : Str} (hn : ct.name = some N) {q : Str} {c : DContent}
    (hc : ct.complexContent = some { restriction := some (some q, c) }) {p : Option Str} {l : Str} (hq : Qualified q p l) (hpp : p ∉ prefixes)
    (hbase : base ∈ d.complexTypes) (hbn : base.name = some l) {cs : List DContent} (hl : Layers prefixes d base cs)
    (hp : ∀ c ∈ cs, PlainContent c) (hdist : (layerNames cs).Nodup) (hcr : py"create" ∉ layerNames cs)
    (hpc : PlainContent c) (hcd : c.fieldNames.Nodup) (hccr : py"create" ∉ c.fieldNames)
    (f : Field) (hf : f ∈ (T (env.idOf (capName l))).fields) (hnot : f.name ∉ c.fieldNames) :
    f ∈ (T (env.idOf (capName N))).fields ∧
    (f.kind = .element → (T (env.idOf (capName N))).choice = false → ∀ k r tag as t pre u post v, f.Claims u → (∀ w ∈ post, ¬ f.Claims w) →
      parseCls T k (r + 1) (env.idOf (capName N)) (.elem tag as t (pre ++ u :: post)) = .ok v →
      ∃ w, v.attr f.name = some w ∧ ReadAs T k r f u w) := by
  obtain ⟨as, es, hfs, ha, hes⟩ := C127_fields hm he hd hT hct hn hc hq hpp hbase hbn hl hp hdist hcr hpc hcd hccr
  have hsane := moduleTable_sane hT (execClasses_ok (execModule_imported he).classes envOk_nil)
  have hin : f ∈ (T (env.idOf (capName N))).fields := by
    rw [hfs]
    refine List.mem_append_left _ ?_
    rw [List.mem_filter]
    exact ⟨hf, by simpa using hnot⟩
  exact ⟨hin, fun hk hch k r tag as t pre u post v hu hpost hv =>
    C29_last_occurrence T hsane.names k r _ hch tag as t pre post u f hin (.inl hk) hu hpost v hv⟩

theorem moduleTable_header (hT : moduleTable compile iso env s = some T) (i : ClsId) : (T i).header = false := by
  rcases moduleTable_at hT i with ⟨⟨n, x⟩, _, h2⟩ | h
  · cases x with
    | complex o => exact (cls_parts h2).2.2.2.2.2
    | simple o => rw [← Option.some.inj h2]; rfl
  · rw [h]; rfl

theorem single_child {T : Table} {r : Nat} {f : Field} {ns : Option Str} {b : Bool} {w : Val} {ks : List Xml} (hk : f.kind = .element)
    (hw : w ≠ Val.none) (h : Contributes T r f ns b w ks) : ∃ k, ks = [k] ∧ k.localName = some f.writtenName := by
  cases h with
  | single _ _ hch =>
    refine ⟨_, rfl, ?_⟩
    have hn : (childName f ns b).loc = f.writtenName := by
      unfold childName
      split <;> rfl
    cases hch <;> exact congrArg some hn
  | absent => exact absurd rfl hw
  | «attribute» h => rw [hk] at h; cases h
  | list h => rw [hk] at h; cases h
  | noName h => rw [hk] at h; cases h
  | noValue h => rw [hk] at h; cases h
  | named h => rw [hk] at h; cases h
  | noNameText h => rw [hk] at h; cases h
  | group h => rcases h with h | h <;> rw [hk] at h <;> cases h
  | groupAsText h => rcases h with h | h <;> rw [hk] at h <;> cases h
  | other h => rcases h with h | h <;> rw [hk] at h <;> cases h

/-- and written, in front of all elements that the restriction repeats, wherever the base type has them. -/
theorem C127_written (hm : schemaToPy prefixes digest n parent d = .ok m) (he : execModule vars [] limit m = .ok (env, s))
    (hd : (m.classes.map (·.name)).Nodup) (hT : moduleTable compile iso env s = some T)
    {ct base : DComplex} (hct : ct ∈ d.complexTypes) {N : Str} (hn : ct.name = some N) {q : Str} {c : DContent}
    (hc : ct.complexContent = some { restriction := some (some q, c) }) {p : Option Str} {l : Str} (hq : Qualified q p l) (hpp : p ∉ prefixes)
    (hbase : base ∈ d.complexTypes) (hbn : base.name = some l) {cs : List DContent} (hl : Layers prefixes d base cs)
    (hp : ∀ c ∈ cs, PlainContent c) (hdist : (layerNames cs).Nodup) (hcr : py"create" ∉ layerNames cs)
    (hpc : PlainContent c) (hcd : c.fieldNames.Nodup) (hccr : py"create" ∉ c.fieldNames)
    (f g : Field) (hf : f ∈ (T (env.idOf (capName l))).fields) (hnot : f.name ∉ c.fieldNames)
    (hg : g ∈ (T (env.idOf (capName N))).fields) (hown : g.name ∈ c.fieldNames) (hkf : f.kind = .element) (hkg : g.kind = .element)
    (r : Nat) (vals : List (Str × Val)) (x : Option Xml) (ns : Option Str) (b : Bool) (o : Out)
    (ho : renderCls T (r + 1) (env.idOf (capName N)) (.inst (env.idOf (capName N)) vals x) ns b = .ok o) {v w : Val}
    (hv : Dict.get? vals f.name = some v) (hw : Dict.get? vals g.name = some w) (hvn : v ≠ Val.none) (hwn : w ≠ Val.none) :
    ∃ before k middle k' rest, o.kids = before ++ k :: (middle ++ k' :: rest) ∧ k.localName = some f.writtenName ∧
      k'.localName = some g.writtenName := by
  obtain ⟨as, es, hfs, ha, hes⟩ := C127_fields hm he hd hT hct hn hc hq hpp hbase hbn hl hp hdist hcr hpc hcd hccr
  have hsane := moduleTable_sane hT (execClasses_ok (execModule_imported he).classes envOk_nil)
  have h1 : f ∈ (T (env.idOf (capName l))).fields.filter (fun f => f.name ∉ c.fieldNames) := by
    rw [List.mem_filter]; exact ⟨hf, by simpa using hnot⟩
  have h2 : g ∈ as ++ es := by
    rw [hfs] at hg
    rcases List.mem_append.1 hg with h | h
    · rw [List.mem_filter] at h
      exact absurd hown (by simpa using h.2)
    · exact h
  obtain ⟨A, B, hAB⟩ := List.append_of_mem h1
  obtain ⟨C, D, hCD⟩ := List.append_of_mem h2
  have hall : (T (env.idOf (capName N))).fields = A ++ f :: (B ++ C ++ g :: D) := by
    rw [hfs, hAB, hCD]; simp
  have hheader : (T (env.idOf (capName N))).header = false := moduleTable_header hT _
  obtain ⟨kpre, ks, kpost, v', hk, hv', hcon, _, parts, hkp, hparts⟩ := C23_order T r _ _ vals x ns b hheader o ho A _ f hall
  rw [hv] at hv'
  injection hv' with hv'
  subst hv'
  obtain ⟨k, rfl, hkn⟩ := single_child hkf hvn hcon
  obtain ⟨p1, p2, rfl, _, hb⟩ := all2_append_left hparts
  cases hb with
  | @cons _ ks' _ p2 hb1 hb2 =>
    obtain ⟨w', hw', hcon'⟩ := hb1
    rw [hw] at hw'
    injection hw' with hw'
    subst hw'
    obtain ⟨k', rfl, hkn'⟩ := single_child hkg hwn hcon'
    exact ⟨kpre, k, p1.flatten, k', p2.flatten, by rw [hk, hkp]; simp, hkn, hkn'⟩

/-- **C127 (repeated).** If the restriction repeats all elements of the base type, the class has the elements of the restriction and no others,
in their order. -/
theorem C127_repeated (hm : schemaToPy prefixes digest n parent d = .ok m) (he : execModule vars [] limit m = .ok (env, s))
    (hd : (m.classes.map (·.name)).Nodup) (hT : moduleTable compile iso env s = some T)
    {ct base : DComplex} (hct : ct ∈ d.complexTypes) {N : Str} (hn : ct.name = some N) {q : Str} {c : DContent}
    (hc : ct.complexContent = some { restriction := some (some q, c) }) {p : Option Str} {l : Str} (hq : Qualified q p l) (hpp : p ∉ prefixes)
    (hbase : base ∈ d.complexTypes) (hbn : base.name = some l) {cs : List DContent} (hl : Layers prefixes d base cs)
    (hp : ∀ c ∈ cs, PlainContent c) (hdist : (layerNames cs).Nodup) (hcr : py"create" ∉ layerNames cs)
    (hpc : PlainContent c) (hcd : c.fieldNames.Nodup) (hccr : py"create" ∉ c.fieldNames)
    (hall : ∀ f ∈ (T (env.idOf (capName l))).fields, f.kind ≠ .attribute → f.name ∈ c.fieldNames) :
    All2 (fun e f => ElemField e f ∧ ∀ q, e.type = some q → TypeMeans prefixes d env compile iso q f.type)
      (c.elements.filter (·.typed)) ((T (env.idOf (capName N))).fields.filter (·.kind ≠ .attribute)) := by
  obtain ⟨as, es, hfs, ha, hes⟩ := C127_fields hm he hd hT hct hn hc hq hpp hbase hbn hl hp hdist hcr hpc hcd hccr
  have h1 : ((T (env.idOf (capName l))).fields.filter (fun f => f.name ∉ c.fieldNames)).filter (·.kind ≠ .attribute) = [] := by
    rw [List.filter_eq_nil_iff]
    intro f hf
    rw [List.mem_filter] at hf
    by_cases hk : f.kind = .attribute
    · simp [hk]
    · exact absurd (hall f hf.1 hk) (by simpa using hf.2)
  have h2 : as.filter (·.kind ≠ .attribute) = [] := by
    rw [List.filter_eq_nil_iff]
    intro f hf
    obtain ⟨a, _, h⟩ := ha.mem_right hf
    simp [h.1.kind]
  have h3 : es.filter (·.kind ≠ .attribute) = es := by
    rw [List.filter_eq_self]
    intro f hf
    obtain ⟨e, hem, h⟩ := hes.mem_right hf
    rcases elem_kind h.1 (List.mem_filter.1 hem).2 with hk | hk <;> simp [hk]
  rw [hfs, List.filter_append, List.filter_append, h1, h2, h3]
  exact hes

end

/-! ### Examples -/

namespace ExRestricted

/-- A quotation is a text with an author; a saying has no author. -/
def quoteDoc : DSchema where
  targetNamespace := some py"urn:q"
  elementFormDefault := some py"qualified"
  complexTypes :=
    [{ name := some py"quotation"
       content := { sequence := some [{ name := some py"text", type := some py"xs:string" },
         { name := some py"author", type := some py"xs:string", minOccurs := some 0 }] } },
     { name := some py"saying"
       complexContent := some { restriction := some (some py"q:quotation", { sequence := some [{ name := some py"text", type := some py"xs:string" }] }) } }]

/-- A saying with an author is read, and written with the author in front. -/
example : ∃ m env s T, schemaToPy [some py"xs"] (fun _ => py"01234") 5 none quoteDoc = .ok m ∧ execModule [] [] 10 m = .ok (env, s) ∧
    moduleTable (fun _ => intPattern) (fun _ => .error .valueError) env s = some T ∧
    (T (env.idOf py"Saying")).fields.map (·.name) = [py"author", py"text"] ∧
    ∃ v, parseCls T 5 5 (env.idOf py"Saying") (.elem ⟨some py"urn:q", py"saying"⟩ [] none
        [.elem ⟨some py"urn:q", py"text"⟩ [] (some py"x") [], .elem ⟨some py"urn:q", py"author"⟩ [] (some py"y") []]) = .ok v ∧
      toXml T 5 v py"saying" (some py"urn:q") true = .ok (.elem ⟨some py"urn:q", py"saying"⟩ [] none
        [.elem ⟨some py"urn:q", py"author"⟩ [] (some py"y") [], .elem ⟨some py"urn:q", py"text"⟩ [] (some py"x") []]) :=
  ⟨_, _, _, _, rfl, rfl, rfl, rfl, _, rfl, rfl⟩

example (m : PyModule) (env : PyEnv) (s : GSchema) (T : Table) (hm : schemaToPy [some py"xs"] (fun _ => py"01234") 5 none quoteDoc = .ok m)
    (he : execModule [] [] 10 m = .ok (env, s)) (hd : (m.classes.map (·.name)).Nodup)
    (hT : moduleTable (fun _ => intPattern) (fun _ => .error .valueError) env s = some T) :
    ∃ as es, (T (env.idOf py"Saying")).fields = (T (env.idOf py"Quotation")).fields.filter (fun f => f.name ∉ [py"text"]) ++ (as ++ es) := by
  obtain ⟨as, es, h, _⟩ := C127_fields hm he hd hT (ct := quoteDoc.complexTypes[1]) (base := quoteDoc.complexTypes[0])
    (by simp [quoteDoc]) rfl rfl (Qualified.prefixed (p := py"q") (by decide) (by decide)) (by decide) (by simp [quoteDoc]) rfl (.own rfl)
    (by intro c hc; cases List.mem_singleton.1 hc; exact ⟨rfl, by simp [quoteDoc], by simp [quoteDoc, DContent.elements]⟩) (by decide) (by decide)
    ⟨rfl, by simp, by simp [DContent.elements]⟩ (by decide) (by decide)
  exact ⟨as, es, h⟩

end ExRestricted

end Soapfish
