import Verif.ReferencesLemmas
import Verif.Props.CodeFields
import Verif.Props.Order
/-
Definitions of a document whose classes have the same name: C131.
-/
set_option maxRecDepth 8000
namespace Soapfish

section
variable {prefixes : List (Option Str)} {digest : Str → Str} {n limit : Nat} {parent : Option Str} {d : DSchema}
  {m : PyModule} {vars : SchemaVars} {env : PyEnv} {s : GSchema} {compile : Str → Pattern} {iso : Iso} {T : Table}

/-- The last class statement for a name counts. -/
theorem execClasses_last {pre post : List PyClassDef} {c : PyClassDef} : ∀ {env env' : PyEnv},
    execClasses env (pre ++ c :: post) = .ok env' → c.name ∉ post.map (·.name) →
    ∃ e o, execClass e c = .ok ((c.name, o) :: e) ∧ env'.get c.name = some o := by
  induction pre with
  | nil =>
    intro env env' h hn
    obtain ⟨e, h1, h2⟩ := execClasses_cons h
    obtain ⟨o, rfl⟩ := execClass_env h1
    exact ⟨env, o, h1, by rw [execClasses_get h2 _ hn, get_cons, if_pos rfl]⟩
  | cons a pre ih =>
    intro env env' h hn
    obtain ⟨e, h1, h2⟩ := execClasses_cons h
    exact ih h2 hn

/-- The names of the fields of the class whose statement is the last for its name. -/
theorem last_names (he : Imported m limit env s) (hT : moduleTable compile iso env s = some T) {pre post : List PyClassDef} {c : PyClassDef}
    (hs : m.classes = pre ++ c :: post) (hl : c.name ∉ post.map (·.name)) {known : List Str} {N : Str} {content : DContent}
    (hc : complexBody prefixes known N (.xsd py"ComplexType") content = .ok c) (hp : PlainContent content)
    (hd : content.fieldNames.Nodup) (hcr : py"create" ∉ content.fieldNames) :
    (T (env.idOf N)).fields.map (·.name) = content.fieldNames := by
  obtain ⟨b1, b2, -, -, -, -, as, gs, es, b5, b6, b7, b8⟩ := complexBody_eq hc
  rw [hp.groups] at b6
  cases b6
  rw [List.append_nil] at b8
  rw [contentElements_elements] at b7
  have htar : c.fields.map PyField.target = content.fieldNames := by rw [b8, content_targets hp b5 b7]
  have hex := he.classes
  rw [hs] at hex
  obtain ⟨e, o, e1, e2⟩ := execClasses_last hex hl
  have hb : baseClass e c.base = .ok (.complex { name := py"ComplexType" }) := by rw [b2]; rfl
  obtain ⟨os, e4, e5⟩ := execClass_on hb (by rw [htar]; exact hd) (by rw [htar]; exact hcr) e1
  have ho := (Prod.mk.inj (List.cons.inj e4).1).2
  subst ho
  rw [b1] at e2
  rw [field_names (cls_parts (moduleTable_class hT e2)).1, ← htar]
  exact all2_targets e5

/-- **C131 (elements).** If a top-level element has a complex type in place, the class named after it has the fields of this type, whatever
else in the document has the same name, unless a later element does. -/
theorem C131_element (hm : schemaToPy prefixes digest n parent d = .ok m) (he : execModule vars [] limit m = .ok (env, s))
    (hT : moduleTable compile iso env s = some T) {pre post : List DTop} {x : DTop} (hx : d.elements = pre ++ x :: post) {N : Str}
    (hn : x.name = some N) {ct : DComplex} (hct : x.complexType = some ct) (hc : ct.complexContent = none)
    (hpost : ∀ y ∈ post, ∀ c n', y.complexType = some c → y.name = some n' ∨ c.name = some n' → capName n' ≠ capName N)
    (hp : PlainContent ct.content) (hd : ct.content.fieldNames.Nodup) (hcr : py"create" ∉ ct.content.fieldNames) :
    (T (env.idOf (capName N))).fields.map (·.name) = ct.content.fieldNames := by
  obtain ⟨cts, r, ag, gs, cs, ts, h1, h2, h3, h4, h5, h6, h7⟩ := schemaToPy_parts hm
  have h8 := mapE_all2 h6
  rw [hx] at h8
  obtain ⟨ta, tb, rfl, h9, h10⟩ := h8.split
  cases h10 with
  | @cons _ c0 _ tc h11 h12 =>
    unfold topClasses at h11
    rw [hct, hn] at h11
    obtain ⟨c, h13, h14⟩ := bind_eq_ok.1 h11
    have h14 := Except.ok.inj h14
    subst h14
    have hbody := complexClass_plain hc h13
    refine last_names (execModule_imported he) hT (pre := r.1 ++ ag ++ gs ++ cs.1 ++ ta.flatten) (post := tc.flatten) (c := c)
      (by rw [h7]; simp) ?_ hbody hp hd hcr
    intro hmem
    obtain ⟨c', hc', hcn⟩ := List.mem_map.1 hmem
    obtain ⟨l, hl, hcl⟩ := List.mem_flatten.1 hc'
    obtain ⟨y, hy, h15⟩ := h12.mem_right hl
    unfold topClasses at h15
    split at h15
    · rename_i ct' hct'
      obtain ⟨c2, h16, h17⟩ := bind_eq_ok.1 h15
      rw [← Except.ok.inj h17] at hcl
      rw [List.mem_singleton.1 hcl] at hcn
      obtain ⟨n', hn', h18⟩ := complexClass_name h16
      exact hpost y hy ct' n' hct' hn' (by rw [← h18, hcn, (complexBody_eq hbody).1])
    · rw [← Except.ok.inj h15] at hcl; cases hcl

theorem collect_statements {l : List DComplex} : ∀ {known : List Str} {r : List PyClassDef × List Str},
    collect (complexClasses prefixes) known l = .ok r → All2 (fun ct c => ∃ k, complexClass prefixes k ct.name ct = .ok c) l r.1 := by
  induction l with
  | nil => intro known r h; rw [← Except.ok.inj h]; exact .nil
  | cons x l ih =>
    intro known r h
    unfold collect at h
    obtain ⟨a, h1, h2⟩ := bind_eq_ok.1 h
    obtain ⟨b, h3, h4⟩ := bind_eq_ok.1 h2
    rw [← Except.ok.inj h4]
    unfold complexClasses at h1
    obtain ⟨c, h5, h6⟩ := bind_eq_ok.1 h1
    obtain ⟨_, _, h7⟩ := bind_eq_ok.1 h6
    rw [← Except.ok.inj h7]
    exact .cons ⟨_, h5⟩ (ih h3)

theorem reorder_underived {l : List DComplex} (hp : ∀ ct ∈ l, ct.complexContent = none) (hne : ∀ ct ∈ l, ∃ c cs, ct.name = some (c :: cs))
    (hd : (l.map (·.name)).Nodup) (n : Nat) : reorderComplex (n + 1) l = .ok l := by
  have hl : ∀ t ∈ l.zipIdx.map (fun p => p.1.decl p.2), ∃ ct ∈ l, t.name = textOf ct.name ∧ t.content = .none := by
    intro t ht
    obtain ⟨p, hpm, rfl⟩ := List.mem_map.1 ht
    have := List.fst_mem_of_mem_zipIdx hpm
    exact ⟨p.1, this, rfl, by unfold DComplex.decl; rw [hp _ this]⟩
  have hnames : (l.zipIdx.map (fun p => p.1.decl p.2)).map (·.name) = l.map fun ct => textOf ct.name := by
    have h0 : l.map (fun ct => textOf ct.name) = (l.zipIdx.map (·.1)).map fun ct => textOf ct.name := by rw [List.zipIdx_map_fst]
    rw [h0, List.map_map, List.map_map]
    rfl
  have hnd : ((l.zipIdx.map (fun p => p.1.decl p.2)).map (·.name)).Nodup := by
    rw [hnames]
    have h0 : l.map (fun ct => textOf ct.name) = (l.map (·.name)).map textOf := by rw [List.map_map]; rfl
    rw [h0]
    refine List.Nodup.map_on ?_ hd
    intro a ha b hb hab
    obtain ⟨x, hx, rfl⟩ := List.mem_map.1 ha
    obtain ⟨y, hy, rfl⟩ := List.mem_map.1 hb
    obtain ⟨c, cs, h1⟩ := hne x hx
    obtain ⟨c', cs', h2⟩ := hne y hy
    rw [h1, h2] at hab ⊢
    exact congrArg some hab
  unfold reorderComplex
  rw [C77_prefixed n _ hnd ?_ ?_]
  · have hall : ∀ t ∈ l.zipIdx.map (fun p => p.1.decl p.2), t.Plain := by
      intro t ht
      obtain ⟨_, _, _, h⟩ := hl t ht
      exact h
    rw [List.filter_eq_self.2 (by simpa using hall), List.filter_eq_nil_iff.2 (by simpa using hall), List.append_nil]
    show Except.ok _ = _
    congr 1
    rw [List.filterMap_map]
    have h1 : l.zipIdx.filterMap ((fun t : TypeDecl => l[t.doc]?) ∘ fun p : DComplex × Nat => p.1.decl p.2) = l.zipIdx.filterMap (fun p => some p.1) := by
      refine List.filterMap_congr fun p hpm => ?_
      show l[p.2]? = some p.1
      exact List.mk_mem_zipIdx_iff_getElem?.1 hpm
    rw [h1, List.filterMap_eq_map', List.zipIdx_map_fst]
  · intro t ht h0
    obtain ⟨ct, hct, h1, _⟩ := hl t ht
    obtain ⟨c, cs, h2⟩ := hne ct hct
    rw [h2] at h1
    rw [h1] at h0
    cases h0
  · intro t ht
    obtain ⟨_, _, _, h⟩ := hl t ht
    exact .inl h

/-- **C131 (types).** In a document without derived complex types, the class of a complex type has its fields, whatever simple types,
groups and earlier complex types have the same name, unless a later complex type or a top-level element with a complex type in place does. -/
theorem C131_type (hm : schemaToPy prefixes digest (n + 1) parent d = .ok m) (he : execModule vars [] limit m = .ok (env, s))
    (hT : moduleTable compile iso env s = some T) (hplain : ∀ ct ∈ d.complexTypes, ct.complexContent = none)
    (hnames : (d.complexTypes.map (·.name)).Nodup) {pre post : List DComplex} {ct : DComplex}
    (hx : d.complexTypes = pre ++ ct :: post) {N : Str} (hn : ct.name = some N)
    (hpost : ∀ x ∈ post, ∀ n', x.name = some n' → capName n' ≠ capName N)
    (htop : ∀ y ∈ d.elements, ∀ c n', y.complexType = some c → y.name = some n' ∨ c.name = some n' → capName n' ≠ capName N)
    (hp : PlainContent ct.content) (hd : ct.content.fieldNames.Nodup) (hcr : py"create" ∉ ct.content.fieldNames) :
    (T (env.idOf (capName N))).fields.map (·.name) = ct.content.fieldNames := by
  obtain ⟨cts, r, ag, gs, cs, ts, h1, h2, h3, h4, h5, h6, h7⟩ := schemaToPy_parts hm
  rw [reorder_underived hplain (fun ct hct => by obtain ⟨c, cs, h, _⟩ := C86_named hm hct; exact ⟨c, cs, h⟩) hnames] at h1
  have h1 := Except.ok.inj h1
  subst h1
  have h8 := collect_statements h5
  rw [hx] at h8
  obtain ⟨ca, cb, hcs, h9, h10⟩ := h8.split
  cases h10 with
  | @cons _ c _ tc h11 h12 =>
    obtain ⟨k, h13⟩ := h11
    rw [hn] at h13
    have hbody := complexClass_plain (hplain ct (by rw [hx]; simp)) h13
    refine last_names (execModule_imported he) hT (pre := r.1 ++ ag ++ gs ++ ca) (post := tc ++ ts.flatten) (c := c)
      (by rw [h7, hcs]; simp) ?_ hbody hp hd hcr
    intro hmem
    obtain ⟨c', hc', hcn⟩ := List.mem_map.1 hmem
    rw [(complexBody_eq hbody).1] at hcn
    rcases List.mem_append.1 hc' with hc' | hc'
    · obtain ⟨y, hy, k', h15⟩ := h12.mem_right hc'
      obtain ⟨n', hn', h18⟩ := complexClass_name h15
      exact hpost y hy n' (by rcases hn' with h | h <;> exact h) (by rw [← h18, hcn])
    · obtain ⟨l, hl, hcl⟩ := List.mem_flatten.1 hc'
      obtain ⟨y, hy, h15⟩ := (mapE_all2 h6).mem_right hl
      unfold topClasses at h15
      split at h15
      · rename_i ct' hct'
        obtain ⟨c2, h16, h17⟩ := bind_eq_ok.1 h15
        rw [← Except.ok.inj h17] at hcl
        rw [List.mem_singleton.1 hcl] at hcn
        obtain ⟨n', hn', h18⟩ := complexClass_name h16
        exact htop y hy ct' n' hct' hn' (by rw [← h18, hcn])
      · rw [← Except.ok.inj h15] at hcl; cases hcl

/-- **C131 (lost).** So if a complex type and a later one, or an element with a type in place, have names that differ at most in the case of the
first letter, but do not have the same fields, the schema object still lists the name of the first one, but the class of this name is not one
with its fields. -/
theorem C131_lost (hm : schemaToPy prefixes digest n parent d = .ok m) (he : execModule vars [] limit m = .ok (env, s))
    (hT : moduleTable compile iso env s = some T) {pre post : List DTop} {x : DTop} (hx : d.elements = pre ++ x :: post) {N : Str}
    (hn : x.name = some N) {ct : DComplex} (hct : x.complexType = some ct) (hc : ct.complexContent = none)
    (hpost : ∀ y ∈ post, ∀ c n', y.complexType = some c → y.name = some n' ∨ c.name = some n' → capName n' ≠ capName N)
    (hp : PlainContent ct.content) (hd : ct.content.fieldNames.Nodup) (hcr : py"create" ∉ ct.content.fieldNames)
    {lost : DComplex} (hl : lost ∈ d.complexTypes) {L : Str} (hln : lost.name = some L) (hLN : capName L = capName N)
    (hne : lost.content.fieldNames ≠ ct.content.fieldNames) :
    capName L ∈ m.schema.complexTypes ∧ (T (env.idOf (capName L))).fields.map (·.name) ≠ lost.content.fieldNames := by
  refine ⟨?_, ?_⟩
  · obtain ⟨_, _, M, _, _, h3, h4⟩ := schemaToPy_complex hm hl
    rw [hln] at h3
    rw [← capitalizeO_some h3]
    exact h4
  · rw [hLN, C131_element hm he hT hx hn hct hc hpost hp hd hcr]
    exact fun h => hne h.symm

end

namespace ExSameName

/-- An element `order` whose type in place has a number, and a complex type `order` with an item; also a complex type `item` with a name, and one
`Item` with a price. -/
def orderDoc : DSchema where
  targetNamespace := some py"urn:o"
  elementFormDefault := some py"qualified"
  complexTypes :=
    [{ name := some py"order", content := { sequence := some [{ name := some py"item", type := some py"xs:string" }] } },
     { name := some py"item", content := { sequence := some [{ name := some py"name", type := some py"xs:string" }] } },
     { name := some py"Item", content := { sequence := some [{ name := some py"price", type := some py"xs:int" }] } }]
  elements :=
    [{ name := some py"order", complexType := some { content := { sequence := some [{ name := some py"number", type := some py"xs:int" }] } } }]

/-- Only the number and the price are left; a text for the type `order` is read without its item. -/
example : ∃ m env s T, schemaToPy [some py"xs"] (fun _ => py"01234") 5 none orderDoc = .ok m ∧ execModule [] [] 10 m = .ok (env, s) ∧
    moduleTable (fun _ => intPattern) (fun _ => .error .valueError) env s = some T ∧
    (T (env.idOf py"Order")).fields.map (·.name) = [py"number"] ∧ (T (env.idOf py"Item")).fields.map (·.name) = [py"price"] :=
  ⟨_, _, _, _, rfl, rfl, rfl, rfl, rfl⟩

example (m : PyModule) (env : PyEnv) (s : GSchema) (T : Table) (hm : schemaToPy [some py"xs"] (fun _ => py"01234") 5 none orderDoc = .ok m)
    (he : execModule [] [] 10 m = .ok (env, s)) (hT : moduleTable (fun _ => intPattern) (fun _ => .error .valueError) env s = some T) :
    py"Order" ∈ m.schema.complexTypes ∧ (T (env.idOf py"Order")).fields.map (·.name) ≠ [py"item"] :=
  C131_lost hm he hT (x := orderDoc.elements[0]) (pre := []) (post := []) rfl rfl rfl rfl (fun _ h => absurd h List.not_mem_nil)
    ⟨rfl, by simp, by simp [DContent.elements]⟩ (by decide) (by decide)
    (lost := orderDoc.complexTypes[0]) (by simp [orderDoc]) rfl rfl (by decide)

example (m : PyModule) (env : PyEnv) (s : GSchema) (T : Table) (hm : schemaToPy [some py"xs"] (fun _ => py"01234") 5 none orderDoc = .ok m)
    (he : execModule [] [] 10 m = .ok (env, s)) (hT : moduleTable (fun _ => intPattern) (fun _ => .error .valueError) env s = some T) :
    (T (env.idOf py"Item")).fields.map (·.name) = [py"price"] :=
  C131_type hm he hT (by simp [orderDoc]) (by decide) (ct := orderDoc.complexTypes[2]) (pre := orderDoc.complexTypes.take 2) (post := []) rfl rfl
    (fun _ h => absurd h List.not_mem_nil)
    (fun y hy c n' h1 h2 => by
      rw [List.mem_singleton.1 hy] at h1 h2
      rw [← Option.some.inj h1] at h2
      rcases h2 with h2 | h2
      · rw [← Option.some.inj h2]; decide
      · cases h2)
    ⟨rfl, by simp [orderDoc], by simp [orderDoc, DContent.elements]⟩ (by decide) (by decide)

end ExSameName

end Soapfish
