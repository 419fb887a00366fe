import Verif.Spec.Code
import Verif.DescribeLemmas
import Verif.Props.Names
import Verif.Props.Order
/-
The code generated from the description of a schema that survives.
-/
namespace Soapfish

/-! ### Names -/

theorem ClassName.cases {n : Str} (h : ClassName n) :
    ∃ c cs, n = c :: cs ∧ 65 ≤ c.toNat ∧ c.toNat ≤ 90 ∧ ∀ d ∈ n, IdentChar d := by
  obtain ⟨⟨c, cs, rfl, hc, hd⟩, _⟩ := h
  refine ⟨c, cs, rfl, hc.1, hc.2, ?_⟩
  intro d hd'
  rcases List.mem_cons.1 hd' with rfl | h
  · exact .inr (.inl hc)
  · exact hd d h

theorem ClassName.ne_nil {n : Str} (h : ClassName n) : n ≠ [] := by
  obtain ⟨c, cs, rfl, _⟩ := h.cases
  exact List.cons_ne_nil _ _

theorem identChar_colon : ¬ IdentChar ':' := by unfold IdentChar; decide

theorem lower_toNat {c : Char} (h1 : 65 ≤ c.toNat) (h2 : c.toNat ≤ 90) :
    (Char.ofNat (c.toNat + 32)).toNat = c.toNat + 32 := by
  have key : ∀ n : Fin 26, (Char.ofNat (65 + n.val + 32)).toNat = 65 + n.val + 32 := by decide
  have h3 := key ⟨c.toNat - 65, by omega⟩
  have h4 : 65 + (c.toNat - 65) + 32 = c.toNat + 32 := by omega
  simp only [h4] at h3
  exact h3

theorem upper_lower {c : Char} (h1 : 65 ≤ c.toNat) (h2 : c.toNat ≤ 90) : upperC (Char.ofNat (c.toNat + 32)) = c := by
  have hv := lower_toNat h1 h2
  unfold upperC
  rw [hv, if_pos (by omega), show c.toNat + 32 - 32 = c.toNat by omega]
  exact Char.ofNat_toNat c

theorem identChar_lower {c : Char} (h1 : 65 ≤ c.toNat) (h2 : c.toNat ≤ 90) : IdentChar (Char.ofNat (c.toNat + 32)) := by
  have hv := lower_toNat h1 h2
  refine .inl ⟨?_, ?_⟩
  · show 97 ≤ (Char.ofNat (c.toNat + 32)).toNat
    omega
  · show (Char.ofNat (c.toNat + 32)).toNat ≤ 122
    omega

/-- A class name comes back from the name in the document. -/
theorem capitalize_refName {n : Str} (h : ClassName n) : capitalize (refName n) = .ok n := by
  obtain ⟨c, cs, rfl, h1, h2, _⟩ := h.cases
  unfold refName
  by_cases hq : c :: cs = py"QName"
  · rw [if_pos hq, hq]; rfl
  · rw [if_neg hq]
    show capitalize ((if 65 ≤ c.toNat ∧ c.toNat ≤ 90 then Char.ofNat (c.toNat + 32) else c) :: cs) = _
    rw [if_pos ⟨h1, h2⟩]
    show Except.ok (upperC (Char.ofNat (c.toNat + 32)) :: cs) = _
    rw [upper_lower h1 h2]

theorem colon_refName {n : Str} (h : ClassName n) : ':' ∉ refName n := by
  obtain ⟨c, cs, rfl, h1, h2, hi⟩ := h.cases
  unfold refName
  by_cases hq : c :: cs = py"QName"
  · rw [if_pos hq, hq]; decide
  · rw [if_neg hq]
    show ':' ∉ (if 65 ≤ c.toNat ∧ c.toNat ≤ 90 then Char.ofNat (c.toNat + 32) else c) :: cs
    rw [if_pos ⟨h1, h2⟩]
    intro hm
    rcases List.mem_cons.1 hm with he | hm
    · exact identChar_colon (he ▸ identChar_lower h1 h2)
    · exact identChar_colon (hi _ (List.mem_cons_of_mem _ hm))

theorem refName_inj {m n : Str} (hm : ClassName m) (hn : ClassName n) (h : refName m = refName n) : m = n := by
  have := capitalize_refName hm
  rw [h, capitalize_refName hn] at this
  injection this with this
  exact this.symm

theorem refName_ne_nil {n : Str} (h : ClassName n) : refName n ≠ [] := by
  intro he
  have := capitalize_refName h
  rw [he] at this
  cases this

theorem capitalize_capName {n : Str} (h : capName n ≠ []) : capitalize n = .ok (capName n) := by
  cases n with
  | nil => exact absurd rfl h
  | cons c cs => rfl

/-! ### References -/

/-- The reference for a type. -/
def refOf (known : List Str) : TypeCls → PyRef
  | .builtin b => .xsd b.clsName
  | t => if t.clsName ∈ known then .name t.clsName else .path t.clsName

/-- A type the templates can refer to. -/
def Referable : TypeCls → Prop
  | .builtin b => CommonBuiltin b
  | .derived n b => ClassName n ∧ b ≠ .simpleType
  | .complex n => ClassName n
  | .simpleType => False

theorem split_sns {n : Str} (h : ClassName n) : splitQName (py"sns:" ++ refName n) = .ok (some py"sns", refName n) := by
  have : splitOn ':' (py"sns:" ++ refName n) = [py"sns", refName n] := by
    have := splitOn_colon (p := py"sns") (r := refName n) (by decide)
    rw [splitOn_none (colon_refName h)] at this
    exact this
  unfold splitQName
  rw [this]

theorem pyRef_class {n : Str} (h : ClassName n) (known : List Str) {src : TypeSource}
    (hq : src.qname = .ok (py"sns:" ++ refName n)) :
    pyRef [some py"xsd"] known src = .ok (if n ∈ known then .name n else .path n) := by
  unfold pyRef
  rw [hq]
  show (splitQName (py"sns:" ++ refName n) >>= _) = _
  rw [split_sns h]
  show (capitalize (refName n) >>= _) = _
  rw [capitalize_refName h]
  rfl

theorem pyRef_common (b : Builtin) (hb : CommonBuiltin b) (known : List Str) {src : TypeSource}
    (hq : src.qname = .ok (builtinRef b)) : pyRef [some py"xsd"] known src = .ok (.xsd b.clsName) := by
  unfold pyRef
  rw [hq]
  cases b with
  | int k => cases k <;> first | rfl | exact absurd hb (by unfold CommonBuiltin; decide)
  | _ => first | rfl | exact absurd hb (by unfold CommonBuiltin; decide)

theorem pyRef_typeRef {t : TypeCls} (h : Referable t) (known : List Str) {src : TypeSource}
    (hq : src.qname = .ok (typeRef t)) : pyRef [some py"xsd"] known src = .ok (refOf known t) := by
  cases t with
  | builtin b => exact pyRef_common b h known hq
  | simpleType => exact h.elim
  | complex n => exact pyRef_class h known hq
  | derived n b =>
    have hr : typeRef (.derived n b) = py"sns:" ++ refName n := by
      cases b with
      | simpleType => exact absurd rfl h.2
      | _ => rfl
    exact pyRef_class h.1 known (hr ▸ hq)

theorem typeRef_ne_nil (t : TypeCls) : ∃ c cs, typeRef t = c :: cs := by
  cases t with
  | builtin b =>
    cases b with
    | int k => cases k <;> exact ⟨_, _, rfl⟩
    | _ => exact ⟨_, _, rfl⟩
  | simpleType => exact ⟨_, _, rfl⟩
  | complex n => exact ⟨_, _, rfl⟩
  | derived n b => cases b <;> exact ⟨_, _, rfl⟩

theorem qname_item (t : TypeCls) (st : Bool) : TypeSource.qname (.item none (some (typeRef t)) st) = .ok (typeRef t) := by
  obtain ⟨c, cs, h⟩ := typeRef_ne_nil t
  rw [h]; rfl

theorem qname_derived (t : TypeCls) : TypeSource.qname (.derived (some (typeRef t))) = .ok (typeRef t) := by
  obtain ⟨c, cs, h⟩ := typeRef_ne_nil t
  rw [h]; rfl

/-! ### Fields -/

/-- The arguments for the facets of an in-place type. -/
def argsOf (t : TypeObj) : List (Str × PyArg) :=
  inPlaceArgs none (restrictionOf (typeRef t.cls) (shownEnums t) (facetsOf t))

/-- The field for an element. -/
def codeField (known : List Str) (e : GElem) : PyField :=
  if e.passedClass then
    match manyOccurs e.maxOccurs.join with
    | some m => .list (pyName e.written) (refOf known e.type.cls) e.written e.minOccurs m e.nillable
    | none => .element (pyName e.written) (refOf known e.type.cls) (if e.written ∈ kwlist then some e.written else none)
        e.minOccurs e.nillable
  else .inPlace (pyName e.written) (refOf known e.type.cls) (argsOf e.type)

theorem elementFields_code (known : List Str) (e : GElem) (hr : Referable e.type.cls)
    (hk : e.passedClass = false → e.written ∉ kwlist) :
    elementFields [some py"xsd"] known (elementOf e) = .ok [codeField known e] := by
  obtain ⟨c, cs, hne⟩ := typeRef_ne_nil e.type.cls
  unfold elementFields codeField
  cases hp : e.passedClass with
  | true =>
    have h1 : typedField [some py"xsd"] known (elementOf e) = .ok [codeField known e] := by
      have ht : (elementOf e).type = some (typeRef e.type.cls) := by simp [elementOf, hp]
      have hn : nonEmpty (elementOf e).type = some (c :: cs) := by rw [ht, hne]; rfl
      unfold typedField
      rw [hn]
      show (pyRef [some py"xsd"] known (.item none (elementOf e).type _) >>= _) = _
      rw [ht, pyRef_typeRef hr known (qname_item _ _)]
      show (match manyOccurs e.maxOccurs.join with | some m => _ | none => _) = _
      unfold codeField
      rw [hp]
      cases hm : manyOccurs e.maxOccurs.join with
      | some m => rfl
      | none =>
        show Except.ok [PyField.element (pyName e.written) (refOf known e.type.cls)
          (if decide (e.written ∈ kwlist) = true then some e.written else none) e.minOccurs e.nillable] = _
        simp
    have h2 : inPlaceField [some py"xsd"] known (elementOf e) = .ok [] := by
      unfold inPlaceField
      rw [show (elementOf e).simpleType = none by simp [elementOf, hp]]
    have h3 : refField [some py"xsd"] known (elementOf e) = .ok [] := rfl
    rw [h1, h2, h3]
    show Except.ok ([codeField known e] ++ [] ++ []) = _
    unfold codeField
    rw [hp]; rfl
  | false =>
    have h1 : typedField [some py"xsd"] known (elementOf e) = .ok [] := by
      unfold typedField
      rw [show (elementOf e).type = none by simp [elementOf, hp]]; rfl
    have h2 : inPlaceField [some py"xsd"] known (elementOf e) = .ok [codeField known e] := by
      unfold inPlaceField
      rw [show (elementOf e).simpleType = some { restriction := some (restrictionOf (typeRef e.type.cls)
        (shownEnums e.type) (facetsOf e.type)) } by simp [elementOf, hp]]
      show (pyRef [some py"xsd"] known (.derived (some (typeRef e.type.cls))) >>= _) = _
      rw [pyRef_typeRef hr known (qname_derived _)]
      show Except.ok [PyField.inPlace (pyName e.written) (refOf known e.type.cls) (inPlaceArgs (some e.written) _)] = _
      unfold codeField argsOf
      rw [hp]
      have : ∀ r, inPlaceArgs (some e.written) r = inPlaceArgs none r := by
        intro r
        unfold inPlaceArgs
        rw [show isKeyword (some e.written) = false from decide_eq_false (hk hp)]
        rfl
      rw [this]; rfl
    have h3 : refField [some py"xsd"] known (elementOf e) = .ok [] := rfl
    rw [h1, h2, h3]
    show Except.ok ([] ++ [codeField known e] ++ []) = _
    unfold codeField
    rw [hp]; rfl

theorem mapE_all {α β : Type} {f : α → Except Exn β} {g : α → β} {l : List α} (h : ∀ a ∈ l, f a = .ok (g a)) :
    mapE f l = .ok (l.map g) := by
  induction l with
  | nil => rfl
  | cons a l ih =>
    unfold mapE
    rw [h a (List.mem_cons_self ..), ih fun b hb => h b (List.mem_cons_of_mem _ hb)]; rfl

/-! ### Classes -/

/-- The class for a complex type. -/
def codeClass (known : List Str) (name : Str) (c : GComplex) : PyClassDef where
  name := name
  base := .xsd py"ComplexType"
  indicator := c.indicator
  fields := c.elements.map (codeField known)
  create := if c.indicator = some .sequence then some (createParams (c.elements.map elementOf)) else none

/-- The elements of the type can be written as code. -/
def CodeOk (c : GComplex) : Prop :=
  c.attributes = [] ∧ c.indicator ≠ none ∧
  ∀ e ∈ c.elements, Referable e.type.cls ∧ (e.passedClass = false → e.written ∉ kwlist)

theorem complexBody_code (known : List Str) (name : Str) {c : GComplex} (h : CodeOk c) :
    complexBody [some py"xsd"] known name (.xsd py"ComplexType") (contentOf c) = .ok (codeClass known name c) := by
  obtain ⟨ha, hi, he⟩ := h
  have hce : contentElements (contentOf c) = (c.indicator, c.elements.map elementOf) := by
    cases hci : c.indicator with
    | none => exact absurd hci hi
    | some i => cases i <;> simp [contentElements, contentOf, hci]
  have hm : mapE (elementFields [some py"xsd"] known) (c.elements.map elementOf) =
      .ok ((c.elements.map (codeField known)).map fun f => [f]) := by
    have : ∀ l : List GElem, (∀ e ∈ l, e ∈ c.elements) → mapE (elementFields [some py"xsd"] known) (l.map elementOf) =
        .ok ((l.map (codeField known)).map fun f => [f]) := by
      intro l
      induction l with
      | nil => intro _; rfl
      | cons e l ih =>
        intro hl
        obtain ⟨h1, h2⟩ := he e (hl e (List.mem_cons_self ..))
        show (elementFields [some py"xsd"] known (elementOf e) >>= _) = _
        rw [elementFields_code known e h1 h2]
        show (mapE (elementFields [some py"xsd"] known) (l.map elementOf) >>= _) = _
        rw [ih fun x hx => hl x (List.mem_cons_of_mem _ hx)]; rfl
    exact this _ fun _ h => h
  have hattr : (contentOf c).attributes = [] := by simp [contentOf, ha]
  unfold complexBody
  rw [hattr, hce]
  show (mapE (elementFields [some py"xsd"] known) (c.elements.map elementOf) >>= _) = _
  rw [hm]
  show Except.ok _ = _
  unfold codeClass
  congr 1
  congr 1
  · show [] ++ [] ++ ((c.elements.map (codeField known)).map fun f => [f]).flatten = _
    generalize c.elements.map (codeField known) = l
    induction l with
    | nil => rfl
    | cons a l ih => simpa using ih
  · show (contentOf c).sequence.map createParams = _
    unfold contentOf
    split <;> simp [*]

theorem complexClass_code (known : List Str) {n name : Str} (hn : capitalize n = .ok name) {c : GComplex} (h : CodeOk c)
    (ctn : Option Str) : complexClass [some py"xsd"] known (some n) { name := ctn, content := contentOf c } =
      .ok (codeClass known name c) := by
  unfold complexClass
  show (capitalize n >>= _) = _
  rw [hn]
  exact complexBody_code known name h

/-- The class for a simple type. -/
def codeSimple (st : GSimple) : PyClassDef where
  name := st.name
  base := .xsd st.base.clsName
  enumeration := if st.enumeration.getD [] = [] then none
    else some ((st.enumeration.getD []).map fun a => textOf a.text?)
  facets := (facetText (st.pattern.map .str)).toList.map fun s => (py"pattern", s)

theorem facetText_blank {a : Option Atom} (h : ∀ x, a = some x → Blank x) : facetText a = none := by
  cases a with
  | none => rfl
  | some x =>
    have : x.truthy = false := by
      rw [← Bool.not_eq_true]
      exact fun ht => (atomTruthy_iff x).1 ht (h x rfl)
    show (if _ then _ else _) = _
    simp [h x rfl]

theorem simpleClasses_code (known : List Str) {st : GSimple} (hn : ClassName st.name) (h : SimpleSurvives st) :
    simpleClasses [some py"xsd"] known (simpleOf st) = .ok ([codeSimple st], known ++ [st.name]) := by
  obtain ⟨⟨b, hb, hc⟩, hd, _, _⟩ := h
  have hf : facetsOfSimple st = { pattern := facetText (st.pattern.map .str) } := by
    unfold facetsOfSimple
    rw [facetText_blank hd]
  have hr : restrictionClass [some py"xsd"] known (some (refName st.name))
      (restrictionOf (typeRef st.base) (st.enumeration.getD []) (facetsOfSimple st)) = .ok (codeSimple st) := by
    unfold restrictionClass
    show (capitalize (refName st.name) >>= _) = _
    rw [capitalize_refName hn]
    show (pyRef [some py"xsd"] known (.derived (some (typeRef st.base))) >>= _) = _
    rw [pyRef_typeRef (t := st.base) (hb ▸ hc) known (qname_derived _), hf]
    show Except.ok _ = _
    unfold codeSimple
    congr 1
    rw [hb]
    congr 1
    · unfold restrictionOf
      cases st.enumeration.getD [] with
      | nil => rfl
      | cons a l => simp
    · show ((facetText (st.pattern.map .str)).map some).toList.map _ ++ [] = _
      cases facetText (st.pattern.map .str) <;> rfl
  unfold simpleClasses
  show ((restrictionClass [some py"xsd"] known (some (refName st.name)) _ >>= _) >>= _) = _
  rw [hr]
  show (capitalize (refName st.name) >>= _) = _
  rw [capitalize_refName hn]; rfl

theorem collect_simple (l : List GSimple) (h : ∀ st ∈ l, ClassName st.name ∧ SimpleSurvives st) : ∀ known,
    collect (simpleClasses [some py"xsd"]) known (l.map simpleOf) =
      .ok (l.map codeSimple, known ++ l.map (·.name)) := by
  induction l with
  | nil => intro known; simp [collect]
  | cons st l ih =>
    intro known
    obtain ⟨h1, h2⟩ := h st (List.mem_cons_self ..)
    show (simpleClasses [some py"xsd"] known (simpleOf st) >>= _) = _
    rw [simpleClasses_code known h1 h2]
    show (collect (simpleClasses [some py"xsd"]) (known ++ [st.name]) (l.map simpleOf) >>= _) = _
    rw [ih fun x hx => h x (List.mem_cons_of_mem _ hx)]
    show Except.ok _ = _
    simp

/-- The classes for complex types; each name is known to the later ones. -/
def codeClasses : List Str → List GComplex → List PyClassDef
  | _, [] => []
  | known, c :: l => codeClass known c.name c :: codeClasses (known ++ [c.name]) l

theorem collect_complex (l : List GComplex) (h : ∀ c ∈ l, ClassName c.name ∧ CodeOk c) : ∀ known,
    collect (complexClasses [some py"xsd"]) known
        (l.map fun c => { name := some (refName c.name), content := contentOf c }) =
      .ok (codeClasses known l, known ++ l.map (·.name)) := by
  induction l with
  | nil => intro known; simp [collect, codeClasses]
  | cons c l ih =>
    intro known
    obtain ⟨h1, h2⟩ := h c (List.mem_cons_self ..)
    have hc : complexClasses [some py"xsd"] known { name := some (refName c.name), content := contentOf c } =
        .ok ([codeClass known c.name c], known ++ [c.name]) := by
      unfold complexClasses
      show (complexClass [some py"xsd"] known (some (refName c.name)) _ >>= _) = _
      rw [complexClass_code known (capitalize_refName h1) h2]
      show (capitalize (refName c.name) >>= _) = _
      rw [capitalize_refName h1]; rfl
    show (complexClasses [some py"xsd"] known _ >>= _) = _
    rw [hc]
    show (collect (complexClasses [some py"xsd"]) (known ++ [c.name]) _ >>= _) = _
    rw [ih fun x hx => h x (List.mem_cons_of_mem _ hx)]
    show Except.ok _ = _
    simp [codeClasses]

/-! ### Top-level elements -/

/-- The top-level elements with a type of their own, as types named after the elements. -/
def ownTypes (l : List GTop) : List GComplex :=
  l.flatMap fun t => match t.type with
    | .inst (some c) => [{ c with name := capName t.name }]
    | _ => []

/-- The entry for a top-level element. -/
def codeTop (known : List Str) (t : GTop) : PyTop where
  name := t.name
  type := match t.type with
    | .ofClass c => .inl (refOf known c)
    | .inst _ => .inr (capName t.name)
  substitutionGroup := t.substitutionGroup.map groupRef

/-- The element can be written as code. -/
def TopOk (t : GTop) : Prop :=
  match t.type with
  | .ofClass c => Referable c
  | .inst (some c) => capName t.name ≠ [] ∧ CodeOk c
  | .inst none => False

theorem topClasses_code (known : List Str) (l : List GTop) (h : ∀ t ∈ l, TopOk t) :
    ∃ r, mapE (topClasses [some py"xsd"] known) (l.map topOf) = .ok r ∧
      r.flatten = (ownTypes l).map fun c => codeClass known c.name c := by
  induction l with
  | nil => exact ⟨[], rfl, rfl⟩
  | cons t l ih =>
    obtain ⟨r, hr, hf⟩ := ih fun x hx => h x (List.mem_cons_of_mem _ hx)
    have ht := h t (List.mem_cons_self ..)
    have key : ∃ cs, topClasses [some py"xsd"] known (topOf t) = .ok cs ∧
        cs = (ownTypes [t]).map fun c => codeClass known c.name c := by
      unfold TopOk at ht
      unfold topClasses topOf ownTypes
      cases hty : t.type with
      | ofClass c => exact ⟨[], rfl, by simp [hty]⟩
      | inst o =>
        rw [hty] at ht
        cases o with
        | none => exact ht.elim
        | some c =>
          refine ⟨_, ?_, by simp [hty]; exact rfl⟩
          show (complexClass [some py"xsd"] known (some t.name) _ >>= _) = _
          rw [complexClass_code known (capitalize_capName ht.1) ht.2]
          rfl
    obtain ⟨cs, h1, h2⟩ := key
    refine ⟨cs :: r, ?_, ?_⟩
    · show (topClasses [some py"xsd"] known (topOf t) >>= _) = _
      rw [h1]
      show (mapE (topClasses [some py"xsd"] known) (l.map topOf) >>= _) = _
      rw [hr]; rfl
    · rw [List.flatten_cons, hf, h2, ← List.map_append]
      simp [ownTypes]

theorem nonEmpty_groupRef (o : Option Str) : nonEmpty (o.map groupRef) = o.map groupRef := by
  cases o with
  | none => rfl
  | some g =>
    show nonEmpty (some (groupRef g)) = some (groupRef g)
    unfold groupRef
    split
    · rename_i h
      cases g with
      | nil => exact absurd h (by decide)
      | cons c cs => rfl
    · rfl

theorem topEntry_code (known : List Str) {t : GTop} (h : TopOk t) :
    topEntry [some py"xsd"] known (topOf t) = .ok (codeTop known t) := by
  unfold TopOk at h
  unfold topEntry codeTop topOf
  cases hty : t.type with
  | ofClass c =>
    rw [hty] at h
    obtain ⟨d, ds, hne⟩ := typeRef_ne_nil c
    show ((match nonEmpty (some (typeRef c)) with | some _ => _ | none => _) >>= _) = _
    rw [show nonEmpty (some (typeRef c)) = some (d :: ds) by rw [hne]; rfl]
    show ((pyRef [some py"xsd"] known (.item none (some (typeRef c)) false) >>= _) >>= _) = _
    rw [pyRef_typeRef h known (qname_item _ _)]
    show Except.ok _ = _
    rw [nonEmpty_groupRef]; rfl
  | inst o =>
    rw [hty] at h
    cases o with
    | none => exact h.elim
    | some c =>
      show ((capitalize t.name >>= _) >>= _) = _
      rw [capitalize_capName h.1]
      show Except.ok _ = _
      rw [nonEmpty_groupRef]; rfl

/-! ### Modules -/

/-- The module for a schema. -/
def codeModule (digest : Str → Str) (s : GSchema) : PyModule where
  classes := s.simpleTypes.map codeSimple ++ codeClasses (s.simpleTypes.map (·.name)) s.complexTypes ++
    (ownTypes s.elements).map fun c =>
      codeClass (s.simpleTypes.map (·.name) ++ s.complexTypes.map (·.name)) c.name c
  schema :=
    { var := py"Schema_" ++ digest s.targetNamespace
      imports := []
      includes := []
      targetNamespace := s.targetNamespace
      elementFormDefault := formText s.qualified
      simpleTypes := s.simpleTypes.map (·.name)
      attributeGroups := []
      groups := []
      complexTypes := s.complexTypes.map (·.name)
      elements := s.elements.map (codeTop (s.simpleTypes.map (·.name) ++ s.complexTypes.map (·.name))) }

/-- The parts of a schema can be written as code. -/
structure SchemaOk (s : GSchema) : Prop where
  alone : s.imports = [] ∧ s.includes = []
  simple : ∀ st ∈ s.simpleTypes, ClassName st.name ∧ SimpleSurvives st
  complex : ∀ c ∈ s.complexTypes, ClassName c.name ∧ CodeOk c
  distinct : (s.complexTypes.map (·.name)).Nodup
  tops : ∀ t ∈ s.elements, TopOk t

theorem reorder_plain (n : Nat) (l : List GComplex) (hn : ∀ c ∈ l, ClassName c.name) (hd : (l.map (·.name)).Nodup) :
    reorderComplex (n + 1) (l.map fun c => { name := some (refName c.name), content := contentOf c }) =
      .ok (l.map fun c => { name := some (refName c.name), content := contentOf c }) := by
  generalize hL : (l.map fun c => ({ name := some (refName c.name), content := contentOf c } : DComplex)) = L
  have hplain : ∀ t ∈ L.zipIdx.map (fun p => p.1.decl p.2), t.Plain := by
    intro t ht
    obtain ⟨p, hp, rfl⟩ := List.mem_map.1 ht
    have : p.1 ∈ L := List.fst_mem_of_mem_zipIdx hp
    rw [← hL] at this
    obtain ⟨c, _, hc⟩ := List.mem_map.1 this
    unfold TypeDecl.Plain DComplex.decl
    rw [← hc]
  have hnames : (L.zipIdx.map (fun p => p.1.decl p.2)).map (·.name) = l.map fun c => refName c.name := by
    rw [List.map_map, show ((fun t : TypeDecl => t.name) ∘ fun p : DComplex × Nat => p.1.decl p.2) =
      (fun d : DComplex => textOf d.name) ∘ Prod.fst from rfl, ← List.map_map, List.zipIdx_map_fst, ← hL, List.map_map]
    rfl
  have hnd : ((L.zipIdx.map (fun p => p.1.decl p.2)).map (·.name)).Nodup := by
    rw [hnames]
    clear hnames hplain hL
    induction l with
    | nil => exact List.nodup_nil
    | cons c l ih =>
      rw [List.map_cons, List.nodup_cons] at hd ⊢
      refine ⟨?_, ih (fun x hx => hn x (List.mem_cons_of_mem _ hx)) hd.2⟩
      intro hm
      obtain ⟨d, hdl, he⟩ := List.mem_map.1 hm
      exact hd.1 (List.mem_map.2 ⟨d, hdl, refName_inj (hn d (List.mem_cons_of_mem _ hdl)) (hn c (List.mem_cons_self ..)) he⟩)
  have hne : ∀ t ∈ L.zipIdx.map (fun p => p.1.decl p.2), t.name ≠ [] := by
    intro t ht
    have : t.name ∈ l.map fun c => refName c.name := hnames ▸ List.mem_map.2 ⟨t, ht, rfl⟩
    obtain ⟨c, hc, he⟩ := List.mem_map.1 this
    rw [← he]
    exact refName_ne_nil (hn c hc)
  have := C77_prefixed n _ hnd hne fun t ht => .inl (hplain t ht)
  unfold reorderComplex
  rw [this, List.filter_eq_self.2 fun t ht => decide_eq_true (hplain t ht), List.filter_eq_nil_iff.2 fun t ht => by
    simp [hplain t ht], List.append_nil]
  show Except.ok _ = _
  congr 1
  rw [List.filterMap_map]
  have hget : ∀ p ∈ L.zipIdx, L[(p.1.decl p.2).doc]? = some p.1 := by
    intro p hp
    exact List.mem_zipIdx_iff_getElem?.1 hp
  rw [show L = L.zipIdx.map Prod.fst by rw [List.zipIdx_map_fst]] 
  rw [List.zipIdx_map_fst]
  have hgen : ∀ M : List (DComplex × Nat), (∀ p ∈ M, L[(p.1.decl p.2).doc]? = some p.1) →
      M.filterMap ((fun t : TypeDecl => L[t.doc]?) ∘ fun p => p.1.decl p.2) = M.map Prod.fst := by
    intro M
    induction M with
    | nil => intro _; rfl
    | cons p M ih =>
      intro hM
      have hp : ((fun t : TypeDecl => L[t.doc]?) ∘ fun p : DComplex × Nat => p.1.decl p.2) p = some p.1 :=
        hM p (List.mem_cons_self ..)
      rw [List.filterMap_cons_some hp, ih fun q hq => hM q (List.mem_cons_of_mem _ hq)]; rfl
  rw [hgen _ hget, List.zipIdx_map_fst]

theorem schemaToPy_code (digest : Str → Str) (n : Nat) {parent : Option Str} {s : GSchema} (h : SchemaOk s) :
    schemaToPy [some py"xsd"] digest (n + 1) parent (schemaOf s) = .ok (codeModule digest s) := by
  unfold schemaToPy
  show (reorderComplex (n + 1) (s.complexTypes.map fun c => { name := some (refName c.name), content := contentOf c })
    >>= _) = _
  rw [reorder_plain n s.complexTypes (fun c hc => (h.complex c hc).1) h.distinct]
  obtain ⟨r, htop, hflat⟩ := topClasses_code (s.simpleTypes.map (·.name) ++ s.complexTypes.map (·.name)) s.elements h.tops
  have hst : schemaStatement [some py"xsd"] digest (s.simpleTypes.map (·.name) ++ s.complexTypes.map (·.name)) (schemaOf s) =
      .ok (codeModule digest s).schema := by
    unfold schemaStatement
    have e1 : mapE (fun st : DSimple => capitalizeO st.name) (s.simpleTypes.map simpleOf) =
        .ok (s.simpleTypes.map (·.name)) := by
      have := mapE_all (f := fun st : GSimple => capitalizeO (simpleOf st).name) (g := (·.name)) (l := s.simpleTypes)
        fun st hst => capitalize_refName (h.simple st hst).1
      rw [← this]
      induction s.simpleTypes with
      | nil => rfl
      | cons a l ih => simp only [List.map_cons, mapE, ih]
    have e2 : mapE (fun ct : DComplex => capitalizeO ct.name)
        (s.complexTypes.map fun c => { name := some (refName c.name), content := contentOf c }) =
        .ok (s.complexTypes.map (·.name)) := by
      have := mapE_all (f := fun c : GComplex => capitalizeO (some (refName c.name))) (g := (·.name)) (l := s.complexTypes)
        fun c hc => capitalize_refName (h.complex c hc).1
      rw [← this]
      induction s.complexTypes with
      | nil => rfl
      | cons a l ih => simp only [List.map_cons, mapE, ih]
    have e3 : mapE (topEntry [some py"xsd"] (s.simpleTypes.map (·.name) ++ s.complexTypes.map (·.name)))
        (s.elements.map topOf) =
        .ok (s.elements.map (codeTop (s.simpleTypes.map (·.name) ++ s.complexTypes.map (·.name)))) := by
      have := mapE_all (f := fun t : GTop => topEntry [some py"xsd"] (s.simpleTypes.map (·.name) ++
          s.complexTypes.map (·.name)) (topOf t))
        (g := codeTop (s.simpleTypes.map (·.name) ++ s.complexTypes.map (·.name))) (l := s.elements)
        fun t ht => topEntry_code _ (h.tops t ht)
      rw [← this]
      generalize s.simpleTypes.map (·.name) ++ s.complexTypes.map (·.name) = K
      clear this
      induction s.elements with
      | nil => rfl
      | cons a l ih => simp only [List.map_cons, mapE, ih]
    have i1 : (schemaOf s).imports = [] := by simp [schemaOf, h.alone.1]
    have i2 : (schemaOf s).includes = [] := by simp [schemaOf, h.alone.2]
    rw [i1, i2]
    show (mapE (fun st : DSimple => capitalizeO st.name) (s.simpleTypes.map simpleOf) >>= _) = _
    rw [e1]
    show (mapE (fun ct : DComplex => capitalizeO ct.name)
        (s.complexTypes.map fun c => { name := some (refName c.name), content := contentOf c }) >>= _) = _
    rw [e2]
    show (mapE (topEntry _ _) (s.elements.map topOf) >>= _) = _
    rw [e3]
    rfl
  have hcode : schemaCode [some py"xsd"] digest [] (schemaOf s) = .ok (codeModule digest s,
      s.simpleTypes.map (·.name) ++ s.complexTypes.map (·.name)) := by
    unfold schemaCode
    show (collect (simpleClasses [some py"xsd"]) [] (s.simpleTypes.map simpleOf) >>= _) = _
    rw [collect_simple s.simpleTypes h.simple []]
    show (collect (complexClasses [some py"xsd"]) (s.simpleTypes.map (·.name))
      (s.complexTypes.map fun c => { name := some (refName c.name), content := contentOf c }) >>= _) = _
    rw [collect_complex s.complexTypes h.complex]
    show (mapE (topClasses [some py"xsd"] _) (s.elements.map topOf) >>= _) = _
    rw [htop]
    show (schemaStatement _ digest _ (schemaOf s) >>= _) = _
    rw [hst]
    show Except.ok _ = _
    rw [hflat]
    simp [codeModule]
  show (schemaCode [some py"xsd"] digest [] (schemaOf s) >>= _) = _
  rw [hcode]; rfl

end Soapfish
