import Verif.Spec.Derived
import Verif.ReferencesLemmas
import Verif.Props.Restricted
/-
What complex types may be derived from in generated code (soapfish/templates/lib.jinja2:97-106): C130.
-/
set_option maxRecDepth 8000
namespace Soapfish

section
variable {prefixes : List (Option Str)} {digest : Str → Str} {n limit : Nat} {parent : Option Str} {d : DSchema}
  {m : PyModule} {vars : SchemaVars} {env : PyEnv} {s : GSchema}

theorem complexClass_derived {known : List Str} {n q : Str} {c : DContent} {ct : DComplex} {cls : PyClassDef}
    (hc : DerivedVia ct q c) (hn : ct.name = some n) (h : complexClass prefixes known (some n) ct = .ok cls) :
    ∃ b, pyRef prefixes known (.derived (some q)) = .ok b ∧ complexBody prefixes known (capName n) b c = .ok cls := by
  cases hc with
  | extension hc => exact complexClass_extension hc hn h
  | restriction hc =>
    unfold complexClass at h
    rw [hc] at h
    simp only [bind, Except.bind, hn] at h
    cases hn' : capitalizeO (some n) with
    | error e => rw [hn'] at h; cases h
    | ok m =>
      rw [hn'] at h
      simp only at h
      rw [← capitalizeO_some hn']
      cases hb : pyRef prefixes known (.derived (some q)) with
      | error e => rw [hb] at h; cases h
      | ok b => rw [hb] at h; exact ⟨b, rfl, h⟩

/-- The class statements before one, and what was known after them. -/
theorem execClasses_split {l : List PyClassDef} : ∀ {env env' : PyEnv}, execClasses env l = .ok env' →
    (l.map (·.name)).Nodup → (∀ n ∈ l.map (·.name), env.get n = none) → ∀ c ∈ l,
    ∃ pre post e o, l = pre ++ c :: post ∧ execClass e c = .ok ((c.name, o) :: e) ∧ env'.get c.name = some o ∧
      (∀ n x, e.get n = some x → env'.get n = some x) ∧ ∀ n x, e.get n = some x → n ∈ pre.map (·.name) ∨ env.get n = some x := by
  induction l with
  | nil => intro _ _ _ _ _ c hc; exact absurd hc List.not_mem_nil
  | cons a l ih =>
    intro env env' h hd hf c hc
    obtain ⟨e, h1, h2⟩ := execClasses_cons h
    obtain ⟨o, rfl⟩ := execClass_env h1
    obtain ⟨hd1, hd2⟩ := List.nodup_cons.1 hd
    have hout : ∀ n ∈ l.map (·.name), PyEnv.get ((a.name, o) :: env) n = none := by
      intro n hn
      rw [get_cons, if_neg (fun he : a.name = n => hd1 (by rw [← he] at hn; exact hn))]
      exact hf n (List.mem_cons_of_mem _ hn)
    rcases List.mem_cons.1 hc with rfl | hc
    · refine ⟨[], l, env, o, rfl, h1, ?_, ?_, fun n x hx => .inr hx⟩
      · rw [execClasses_get h2 _ hd1, get_cons, if_pos rfl]
      · intro n x hx
        have hn : n ∉ (c :: l).map (·.name) := fun hm => by rw [hf n hm] at hx; cases hx
        rw [execClasses_get h n hn]; exact hx
    · obtain ⟨pre, post, e, o', g1, g2, g3, g4, g5⟩ := ih h2 hd2 hout c hc
      refine ⟨a :: pre, post, e, o', by rw [g1]; rfl, g2, g3, g4, fun n x hx => ?_⟩
      rcases g5 n x hx with g | g
      · exact .inl (List.mem_cons_of_mem _ g)
      · rw [get_cons] at g
        split at g
        · rename_i hn; exact .inl (hn ▸ List.mem_cons_self)
        · exact .inr g

/-- What a class statement on top of a complex type class leaves, if its own names are distinct and none is `create`. -/
theorem execClass_derived {env env' : PyEnv} {c : PyClassDef} {o : ComplexObj} (hb : baseClass env c.base = .ok (.complex o))
    (hd : (c.fields.map PyField.target).Nodup) (hcr : py"create" ∉ c.fields.map PyField.target)
    (h : execClass env c = .ok env') :
    ∃ first os, env' = (c.name, .complex (ComplexObj.mk c.name (c.indicator.getD o.indicator) (first ++ os) (c.name :: o.bases) o.group)) :: env ∧
      All2 (fun f p => p.1 = f.target ∧ ∃ bound, py"xsd" ∉ bound ∧ execField env bound f = .ok p.2) c.fields os := by
  unfold execClass at h
  rw [hb] at h
  simp only [bind, Except.bind] at h
  cases h1 : evalEnumeration c.enumeration with
  | error e => rw [h1] at h; cases h
  | ok a =>
    cases h2 : evalFacets c.facets with
    | error e => rw [h1, h2] at h; cases h
    | ok b =>
      cases h3 : execFields env [] c.fields with
      | error e => rw [h1, h2, h3] at h; cases h
      | ok f =>
        obtain ⟨os, hf, hall⟩ := execFields_all2 h3 (by simpa using hd)
        rw [List.nil_append] at hf
        subst hf
        cases h4 : execCreate f c.create with
        | error e => rw [h1, h2, h3] at h; simp only [h4] at h; cases h
        | ok g =>
          rw [h1, h2, h3] at h
          simp only [h4] at h
          have hg : g = f := execCreate_plain h4 (by rw [all2_targets hall]; exact hcr)
          subst hg
          exact ⟨_, g, (Except.ok.inj h).symm, hall⟩

/-- The class for a derived complex type. -/
structure DerivedClass (prefixes : List (Option Str)) (limit : Nat) (m : PyModule) (c : DContent) (q N : Str) (env : PyEnv) (known : List Str)
    (pre post : List PyClassDef) (cls : PyClassDef) (ref : PyRef) (base : ComplexObj)
    (e : PyEnv) (os : List (Str × FieldObj)) (as gs : List PyField) (es : List (List PyField)) : Prop where
  split : m.classes = pre ++ cls :: post
  name : cls.name = capName N
  refers : pyRef prefixes known (.derived (some q)) = .ok ref
  based : baseClass e ref = .ok (.complex base)
  attrs : All2 (fun a f => attributeField prefixes known a = .ok f) c.attributes as
  groups : All2 (fun g f => attributeGroupRef prefixes known g = .ok f) c.attributeGroups gs
  elems : All2 (fun e f => elementFields prefixes known e = .ok f) c.elements es
  exec : m.OneEach → All2 (fun f p => p.1 = f.target ∧ ∃ bound, py"xsd" ∉ bound ∧ execField e bound f = .ok p.2) (as ++ gs ++ es.flatten) os
  before : ∀ n x, e.get n = some x → n ∈ pre.map (·.name)
  mono : ∀ n x, e.get n = some x → env.get n = some x
  evaluated : m.OneEach → ∀ p ∈ os, evaluateUse env limit (FieldObj.type p.2) = .ok ()

theorem derived_class (hm : schemaToPy prefixes digest n parent d = .ok m) (he : Imported m limit env s)
    (hd : (m.classes.map (·.name)).Nodup) {ct : DComplex} (hct : ct ∈ d.complexTypes)
    {q : Str} {c : DContent} (hc : DerivedVia ct q c) {N : Str} (hn : ct.name = some N) :
    ∃ known pre post cls ref base e os as gs es, DerivedClass prefixes limit m c q N env known pre post cls ref base e os as gs es := by
  obtain ⟨known, cls, N', h1, h2, h3, h4⟩ := schemaToPy_complex hm hct
  rw [hn] at h1 h3
  rw [capitalizeO_some h3] at h4
  obtain ⟨ref, hr1, hr2⟩ := complexClass_derived hc hn h1
  obtain ⟨b1, b2, -, -, -, -, as, gs, es, b5, b6, b7, b8⟩ := complexBody_eq hr2
  rw [contentElements_elements] at b7
  obtain ⟨pre, post, e, o, e0, e1, e2, e3, e4⟩ := execClasses_split he.classes hd (fun _ _ => rfl) cls h2
  have hf := he.forced _ h4
  unfold forceClass at hf
  rw [← b1, e2] at hf
  have hbase : ∃ base, baseClass e ref = .ok (.complex base) := by
    cases hx : baseClass e ref with
    | error er => unfold execClass at e1; rw [b2, hx] at e1; cases e1
    | ok o' =>
      cases o' with
      | complex b => exact ⟨b, rfl⟩
      | simple b =>
        obtain ⟨_, _, _, _, g⟩ := execClass_on_simple (by rw [b2]; exact hx) e1
        have := (Prod.mk.inj (List.cons.inj g).1).2
        rw [this] at hf
        cases hf
  obtain ⟨base, hbase⟩ := hbase
  have hb : baseClass e cls.base = .ok (.complex base) := by rw [b2]; exact hbase
  have hbef : ∀ n x, e.get n = some x → n ∈ pre.map (·.name) := fun n x hx => by
    rcases e4 n x hx with g | g
    · exact g
    · cases g
  by_cases ho : m.OneEach
  · obtain ⟨inh, os, e5, e6⟩ := execClass_derived hb (ho cls h2).1 (ho cls h2).2 e1
    have ho' := (Prod.mk.inj (List.cons.inj e5).1).2
    rw [ho'] at hf
    exact ⟨known, pre, post, cls, ref, base, e, os, as, gs, es, e0, b1, hr1, hbase, b5, b6, b7, fun _ => b8 ▸ e6, hbef, e3,
      fun _ p hp => forX_mem hf p (List.mem_append_right _ hp)⟩
  · exact ⟨known, pre, post, cls, ref, base, e, [], as, gs, es, e0, b1, hr1, hbase, b5, b6, b7, fun h => absurd h ho, hbef, e3,
      fun h => absurd h ho⟩

theorem derived_base {known : List Str} {q l N : Str} {p : Option Str} {c : DContent} {pre post : List PyClassDef} {cls : PyClassDef} {ref : PyRef}
    {base : ComplexObj} {e : PyEnv} {os : List (Str × FieldObj)} {as gs : List PyField} {es : List (List PyField)}
    (h : DerivedClass prefixes limit m c q N env known pre post cls ref base e os as gs es) (hq : Qualified q p l) (hp : p ∉ prefixes) :
    e.get (capName l) = some (.complex base) := by
  have hr := pyRef_qualified (qname_base h.refers) hq h.refers
  rw [if_neg hp] at hr
  have hb := h.based
  split at hr
  · rw [hr] at hb
    unfold baseClass at hb
    simp only at hb
    split at hb
    · rename_i o ho
      rw [ho, Except.ok.inj hb]
    · cases hb
  · rw [hr] at hb
    cases hb

/-- **C130 (bases).** Code generated for a document can be imported only if what a complex type is derived from gets a class with fields, and
this class comes first. -/
theorem C130_base (hm : schemaToPy prefixes digest n parent d = .ok m) (he : execModule vars [] limit m = .ok (env, s))
    (hd : (m.classes.map (·.name)).Nodup) {ct : DComplex} (hct : ct ∈ d.complexTypes) {N : Str} (hn : ct.name = some N)
    {q : Str} {c : DContent} (hc : DerivedVia ct q c) {p : Option Str} {l : Str} (hq : Qualified q p l) (hp : p ∉ prefixes) :
    GivesClass d (capName l) ∧ (∃ o, env.get (capName l) = some (.complex o)) ∧
      ∃ pre mid post a b, m.classes = pre ++ a :: mid ++ b :: post ∧ a.name = capName l ∧ b.name = capName N := by
  have himp := execModule_imported he
  obtain ⟨known, pre, post, cls, ref, base, e, os, as, gs, es, h⟩ := derived_class hm himp hd hct hc hn
  have hg := derived_base h hq hp
  obtain ⟨a, ha, han⟩ := List.mem_map.1 (h.before _ _ hg)
  have ham : a ∈ m.classes := by rw [h.split]; exact List.mem_append_left _ ha
  obtain ⟨p1, p2, rfl⟩ := List.append_of_mem ha
  exact ⟨han ▸ class_given hm ham, ⟨_, h.mono _ _ hg⟩, p1, p2, post, a, cls, by rw [h.split], han, h.name⟩

/-- **C130 (built-in types).** Code for a document with a complex type derived from a type of XML Schema, as `anyType`, cannot be imported; names
that are not those of types but happen to be those of classes in `soapfish.xsd` are the only exceptions. -/
theorem C130_builtin (hm : schemaToPy prefixes digest n parent d = .ok m) (he : execModule vars [] limit m = .ok (env, s))
    (hd : (m.classes.map (·.name)).Nodup) {ct : DComplex} (hct : ct ∈ d.complexTypes) {N : Str} (hn : ct.name = some N)
    {q : Str} {c : DContent} (hc : DerivedVia ct q c) {p : Option Str} {l : Str} (hq : Qualified q p l) (hp : p ∈ prefixes) :
    capName l ∈ [py"ComplexType", py"Group", py"AttributeGroup"] := by
  obtain ⟨known, pre, post, cls, ref, base, e, os, as, gs, es, h⟩ := derived_class hm (execModule_imported he) hd hct hc hn
  have hr := pyRef_qualified (qname_base h.refers) hq h.refers
  rw [if_pos hp] at hr
  have hb := h.based
  rw [hr] at hb
  unfold baseClass at hb
  simp only at hb
  unfold xsdAttr at hb
  split at hb
  · cases hb
  · split at hb
    · rename_i hx; simpa using hx
    · split at hb <;> cases hb

theorem nodup_before {α : Type} {l : List α} {f : α → Str} (hd : (l.map f).Nodup) {p1 p2 p3 q1 q2 q3 : List α} {a b b' c : α}
    (h1 : l = p1 ++ a :: p2 ++ b :: p3) (h2 : l = q1 ++ b' :: q2 ++ c :: q3) (hb : f b = f b') :
    ∃ r1 r2 r3, l = r1 ++ a :: r2 ++ c :: r3 := by
  have key : p1 ++ a :: p2 = q1 := by
    have hl : l.map f = (p1 ++ a :: p2).map f ++ f b :: p3.map f := by rw [h1]; simp
    have hl' : l.map f = q1.map f ++ f b :: (q2 ++ c :: q3).map f := by rw [h2, hb]; simp
    have e1 : l = (p1 ++ a :: p2) ++ b :: p3 := h1
    have e2 : l = q1 ++ b' :: (q2 ++ c :: q3) := by rw [h2]; simp
    have n1 : (l.map f).idxOf (f b) = (p1 ++ a :: p2).length := by
      have hn : f b ∉ (p1 ++ a :: p2).map f := by
        rw [hl] at hd
        intro hm
        exact (List.nodup_append.1 hd).2.2 _ hm _ List.mem_cons_self rfl
      rw [hl, List.idxOf_append_of_notMem hn]; simp
    have n2 : (l.map f).idxOf (f b) = q1.length := by
      have hn : f b ∉ q1.map f := by
        rw [hl'] at hd
        intro hm
        exact (List.nodup_append.1 hd).2.2 _ hm _ List.mem_cons_self rfl
      rw [hl', List.idxOf_append_of_notMem hn]; simp
    exact (List.append_inj (e1.symm.trans e2) (n1.symm.trans n2)).1
  exact ⟨p1, p2 ++ b' :: q2, q3, by rw [h2, ← key]; simp⟩

theorem derives_before (hm : schemaToPy prefixes digest n parent d = .ok m) (he : execModule vars [] limit m = .ok (env, s))
    (hd : (m.classes.map (·.name)).Nodup) {A B : Str} (h : DerivesInto prefixes d A B) :
    ∃ pre mid post a b, m.classes = pre ++ b :: mid ++ a :: post ∧ b.name = B ∧ a.name = A := by
  induction h with
  | step h1 h2 h3 h4 h5 =>
    obtain ⟨-, -, h⟩ := C130_base hm he hd h1 h2 h3 h4 h5
    obtain ⟨pre, mid, post, a, b, h6, h7, h8⟩ := h
    exact ⟨pre, mid, post, b, a, h6, h7, h8⟩
  | trans _ _ ih1 ih2 =>
    obtain ⟨p1, p2, p3, a, b, h1, h2, h3⟩ := ih1
    obtain ⟨q1, q2, q3, b', c, g1, g2, g3⟩ := ih2
    obtain ⟨r1, r2, r3, h⟩ := nodup_before hd g1 h1 (g3.trans h2.symm)
    exact ⟨r1, r2, r3, a, c, h, g2, h3⟩

/-- **C130 (circles).** Code for a document in which complex types are derived from each other in a circle cannot be imported. -/
theorem C130_circle (hm : schemaToPy prefixes digest n parent d = .ok m) (he : execModule vars [] limit m = .ok (env, s))
    (hd : (m.classes.map (·.name)).Nodup) (A : Str) : ¬ DerivesInto prefixes d A A := by
  intro h
  obtain ⟨p1, p2, p3, a, b, h1, h2, h3⟩ := derives_before hm he hd h
  rw [h1] at hd
  simp only [List.map_append, List.map_cons] at hd
  exact (List.nodup_append.1 hd).2.2 _ (by rw [h2]; simp) _ List.mem_cons_self h3.symm

/-- **C130 (contents).** Code for a document can be imported only if each name that the content of a derived complex type refers to belongs to a
definition that gets a class. -/
theorem C130_defined (hm : schemaToPy prefixes digest n parent d = .ok m) (he : execModule vars [] limit m = .ok (env, s))
    (hd : (m.classes.map (·.name)).Nodup) (ho : m.OneEach) {ct : DComplex} (hct : ct ∈ d.complexTypes)
    {b : Str} {c : DContent} (hc : DerivedVia ct b c) {q l : Str} {p : Option Str} (hr : RefersBy c q) (hq0 : q ≠ [])
    (hq : Qualified q p l) (hp : p ∉ prefixes) : GivesClass d (capName l) := by
  have himp := execModule_imported he
  obtain ⟨_, _, hname, -⟩ := C86_named hm hct
  obtain ⟨known, pre, post, cls, ref, base, e, os, as, gs, es, h⟩ := derived_class hm himp hd hct hc hname
  have key : ∀ (src : TypeSource) (r : PyRef) (f : PyField), src.qname = .ok q → pyRef prefixes known src = .ok r →
      f ∈ as ++ gs ++ es.flatten → ((∃ a b c, f = .attribute a r b c) ∨ (∃ a, f = .ref a r) ∨
        (∃ a b c d, f = .element a r b c d) ∨ ∃ a b c d g, f = .list a r b c d g) → GivesClass d (capName l) := by
    intro src r f hs hr hf hk
    obtain ⟨x, hx, _, bound, _, hex⟩ := (h.exec ho).mem_left hf
    obtain ⟨o, hg, _⟩ := evaluated_ref hs hq hp hr (execField_type hex hk) h.mono (h.evaluated ho x hx)
    rcases execClasses_bound himp.classes _ _ hg with hn | hn
    · obtain ⟨c, hc, hcn⟩ := List.mem_map.1 hn
      exact hcn ▸ class_given hm hc
    · cases hn
  cases hr with
  | @attributeRef a ha hra =>
    obtain ⟨f, hf, h1⟩ := h.attrs.mem_left ha
    unfold attributeField at h1
    obtain ⟨r, h2, h1⟩ := bind_eq_ok.1 h1
    obtain ⟨_, _, h1⟩ := bind_eq_ok.1 h1
    rw [hra] at h2
    exact key _ r f (item_ref hq0) h2 (List.mem_append_left _ (List.mem_append_left _ hf))
      (.inl ⟨_, _, _, (Except.ok.inj h1).symm⟩)
  | @attributeType a ha hra hta =>
    obtain ⟨f, hf, h1⟩ := h.attrs.mem_left ha
    unfold attributeField at h1
    obtain ⟨r, h2, h1⟩ := bind_eq_ok.1 h1
    obtain ⟨_, _, h1⟩ := bind_eq_ok.1 h1
    rw [hra, hta] at h2
    exact key _ r f (item_type hq0) h2 (List.mem_append_left _ (List.mem_append_left _ hf))
      (.inl ⟨_, _, _, (Except.ok.inj h1).symm⟩)
  | attributeGroup hg =>
    obtain ⟨f, hf, h1⟩ := h.groups.mem_left hg
    unfold attributeGroupRef at h1
    obtain ⟨r, h2, h1⟩ := bind_eq_ok.1 h1
    refine key (.text q) r f ?_ h2 (List.mem_append_left _ (List.mem_append_right _ hf)) (.inr (.inl ⟨_, (Except.ok.inj h1).symm⟩))
    cases q with
    | nil => exact absurd rfl hq0
    | cons => rfl
  | @elementRef x hx hra =>
    obtain ⟨fs, hfs, h1⟩ := h.elems.mem_left hx
    obtain ⟨r, h2, h3⟩ := ref_field h1 hra hq0
    exact key _ r _ (item_ref hq0) h2 (List.mem_append_right _ (List.mem_flatten.2 ⟨fs, hfs, h3⟩)) (.inr (.inl ⟨_, rfl⟩))
  | @elementType x hx hra hta =>
    obtain ⟨fs, hfs, h1⟩ := h.elems.mem_left hx
    obtain ⟨r, h2, f, h3, h4⟩ := type_field h1 hra hta hq0
    exact key _ r f (item_type hq0) h2 (List.mem_append_right _ (List.mem_flatten.2 ⟨fs, hfs, h3⟩)) (.inr (.inr h4))

end

namespace ExDerived

/-- A bird is an animal; the document has the bird first. -/
def zooDoc : DSchema where
  targetNamespace := some py"urn:z"
  complexTypes :=
    [{ name := some py"bird"
       complexContent := some { extension := some (some py"z:animal", { sequence := some [{ name := some py"wing", type := some py"z:wing" }] }) } },
     { name := some py"animal", content := { sequence := some [{ name := some py"age", type := some py"xs:int" }] } },
     { name := some py"wing", content := { sequence := some [{ name := some py"span", type := some py"xs:int" }] } }]

/-- The class of the animal comes first. -/
example : ∃ m env s, schemaToPy [some py"xs"] (fun _ => py"01234") 5 none zooDoc = .ok m ∧ execModule [] [] 10 m = .ok (env, s) ∧
    m.classes.map (·.name) = [py"Animal", py"Wing", py"Bird"] := ⟨_, _, _, rfl, rfl, rfl⟩

example (m : PyModule) (env : PyEnv) (s : GSchema) (hm : schemaToPy [some py"xs"] (fun _ => py"01234") 5 none zooDoc = .ok m)
    (he : execModule [] [] 10 m = .ok (env, s)) (hd : (m.classes.map (·.name)).Nodup) :
    ∃ pre mid post a b, m.classes = pre ++ a :: mid ++ b :: post ∧ a.name = py"Animal" ∧ b.name = py"Bird" :=
  (C130_base hm he hd (ct := zooDoc.complexTypes[0]) (by simp [zooDoc]) rfl (.extension rfl)
    (Qualified.prefixed (p := py"z") (by decide) (by decide)) (by decide)).2.2

/-- A box derived from `anyType`: there is code for it, but it cannot be imported. -/
def boxDoc : DSchema where
  targetNamespace := some py"urn:z"
  complexTypes :=
    [{ name := some py"box"
       complexContent := some { restriction := some (some py"xs:anyType", { sequence := some [{ name := some py"size", type := some py"xs:int" }] }) } }]

example : ∃ m, schemaToPy [some py"xs"] (fun _ => py"01234") 5 none boxDoc = .ok m ∧
    execModule [] [] 10 m = .error (.raised .attributeError) := ⟨_, rfl, rfl⟩

example (m : PyModule) (hm : schemaToPy [some py"xs"] (fun _ => py"01234") 5 none boxDoc = .ok m) (hd : (m.classes.map (·.name)).Nodup)
    (vars : SchemaVars) (limit : Nat) (env : PyEnv) (s : GSchema) : execModule vars [] limit m ≠ .ok (env, s) := fun he =>
  absurd (C130_builtin hm he hd (ct := boxDoc.complexTypes[0]) (by simp [boxDoc]) rfl (.restriction rfl)
    (Qualified.prefixed (p := py"xs") (by decide) (by decide)) (by decide)) (by decide)

/-- An egg is a hen is an egg. -/
def eggDoc : DSchema where
  targetNamespace := some py"urn:z"
  complexTypes :=
    [{ name := some py"egg", complexContent := some { extension := some (some py"z:hen", {}) } },
     { name := some py"hen", complexContent := some { extension := some (some py"z:egg", {}) } }]

example (n : Nat) (m : PyModule) (hm : schemaToPy [some py"xs"] (fun _ => py"01234") n none eggDoc = .ok m)
    (hd : (m.classes.map (·.name)).Nodup) (vars : SchemaVars) (limit : Nat) (env : PyEnv) (s : GSchema) :
    execModule vars [] limit m ≠ .ok (env, s) := fun he =>
  C130_circle hm he hd py"Egg"
    (.trans (B := py"Hen")
      (.step (ct := eggDoc.complexTypes[0]) (by simp [eggDoc]) rfl (.extension rfl) (Qualified.prefixed (p := py"z") (l := py"hen") (by decide) (by decide)) (by decide))
      (.step (ct := eggDoc.complexTypes[1]) (by simp [eggDoc]) rfl (.extension rfl) (Qualified.prefixed (p := py"z") (l := py"egg") (by decide) (by decide)) (by decide)))

example (m : PyModule) (env : PyEnv) (s : GSchema) (hm : schemaToPy [some py"xs"] (fun _ => py"01234") 5 none zooDoc = .ok m)
    (he : execModule [] [] 10 m = .ok (env, s)) (hd : (m.classes.map (·.name)).Nodup) (ho : m.OneEach) : GivesClass zooDoc py"Wing" :=
  C130_defined hm he hd ho (ct := zooDoc.complexTypes[0]) (by simp [zooDoc]) (.extension rfl)
    (.elementType (e := { name := some py"wing", type := some py"z:wing" }) (by simp [DContent.elements]) rfl rfl)
    (by decide) (Qualified.prefixed (p := py"z") (by decide) (by decide)) (by decide)

end ExDerived

end Soapfish
