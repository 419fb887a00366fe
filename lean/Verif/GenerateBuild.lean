import Verif.GenerateLemmas
/-
Building the description of a schema: what the objects are and when the construction succeeds.
-/
set_option maxRecDepth 4000
namespace Soapfish

/-- The exceptions raised while a description is built. -/
def BuildErr (e : Exn) : Prop := e = .valueError ∨ e = .indexError ∨ e = .attributeError

abbrev SpecBuilds {α : Type} (x : Except Exn α) (P : Prop) (a : α) : Prop := Gives BuildErr x P a

section
variable (v : Version) (D : Nat)

theorem uncapitalize_gives (n : Str) : SpecBuilds (uncapitalize n) (n ≠ []) (refName n) := by
  unfold uncapitalize refName
  by_cases hq : n = py"QName"
  · rw [if_pos hq, if_pos hq]
    exact (Gives.ok _).congr (by simp [hq])
  · rw [if_neg hq, if_neg hq]
    cases n with
    | nil => exact ⟨by simp, fun _ => ⟨_, .inr (.inl rfl), rfl⟩⟩
    | cons c cs => exact (Gives.ok _).congr' (by simp) fun _ => rfl

theorem baseIsSimple_iff (t : TypeCls) : t.baseIsSimple = true ↔ t.FirstBaseSimple := by
  cases t with
  | builtin b =>
    cases b with
    | int k => cases k <;> decide
    | _ => decide
  | derived n b => simp [TypeCls.baseIsSimple, TypeCls.FirstBaseSimple]
  | simpleType => decide
  | complex n => simp [TypeCls.baseIsSimple, TypeCls.FirstBaseSimple]

theorem xsdType_gives (t : TypeCls) : SpecBuilds (xsdType t) t.HasName (typeRef t) := by
  cases t with
  | builtin b =>
    refine (Gives.of_eq (a := builtinRef b) ?_).congr' (by simp [TypeCls.HasName]) fun _ => rfl
    cases b with
    | int k => cases k <;> decide
    | _ => decide
  | simpleType => exact (Gives.of_eq (a := py"sns:simpleType") (by decide)).congr' (by simp [TypeCls.HasName]) fun _ => rfl
  | complex n =>
    exact ((uncapitalize_gives n).andOk fun n => py"sns:" ++ n)
  | derived n b =>
    have h := (uncapitalize_gives n).andOk fun n => if (decide (b = .simpleType) || false) then py"xsd:" ++ n else py"sns:" ++ n
    refine h.congr' Iff.rfl fun _ => ?_
    cases b <;> simp [typeRef]

theorem atomTruthy_iff (a : Atom) : a.truthy = true ↔ ¬ Blank a := by
  cases a with
  | float f => cases f <;> simp [Atom.truthy, Blank]
  | str s => cases s <;> simp [Atom.truthy, Blank]
  | _ => simp [Atom.truthy, Blank]

/-- The text of a facet that is present. -/
def facetText : Option Atom → Option Str
  | some a => if Blank a then none else some a.toStr
  | none => none

theorem shownFacet_eq (name : Str) (a : Option Atom) : shownFacet name a = (facetText a).toList.map fun s => (name, s) := by
  cases a with
  | none => rfl
  | some a => simp only [shownFacet, facetText]; split <;> rfl

theorem build_enum (a : Atom) : SpecBuilds (enumCreate v (D + 12) a) (a = .none ∨ ∃ s, a = .str s) (enumV a) := by
  cases a with
  | none => exact (Gives.of_eq rfl).congr (by simp)
  | str s => exact (Gives.of_eq rfl).congr (by simp)
  | _ => exact ⟨by simp, fun _ => ⟨.valueError, .inl rfl, rfl⟩⟩

theorem build_enums (base : Str) (f : Facets) (as : List Atom) :
    SpecBuilds (addEnums v (D + 12) (restrictionV base [] f) as) (Texts as) (restrictionV base (as.map enumV) f) := by
  refine Gives.fold (mk := fun es => restrictionV base es f) (g := enumV) ?_ as []
  intro items a
  refine ((build_enum v D a).bind fun _ => Gives.of_eq ?_).congr (by simp)
  rfl

/-- The facet fields. -/
inductive FacetField : Str → ClsId → (Facets → Option Str → Facets) → Prop where
  | pattern : FacetField py"pattern" xPattern fun f s => { f with pattern := s }
  | minInclusive : FacetField py"minInclusive" xRestrictionValue fun f s => { f with minInclusive := s }
  | minExclusive : FacetField py"minExclusive" xRestrictionValue fun f s => { f with minExclusive := s }
  | maxExclusive : FacetField py"maxExclusive" xRestrictionValue fun f s => { f with maxExclusive := s }
  | maxInclusive : FacetField py"maxInclusive" xRestrictionValue fun f s => { f with maxInclusive := s }
  | fractionDigits : FacetField py"fractionDigits" xRestrictionValue fun f s => { f with fractionDigits := s }
  | totalDigits : FacetField py"totalDigits" xRestrictionValue fun f s => { f with totalDigits := s }

theorem set_facet {name : Str} {c : ClsId} {upd : Facets → Option Str → Facets} (h : FacetField name c upd)
    (base : Str) (es : List Val) (f : Facets) (s : Str) :
    setSpec v (D + 12) (restrictionV base es f) name (facetV c (some s)) = .ok (restrictionV base es (upd f (some s))) := by
  cases h <;> rfl

theorem build_facet {name : Str} {c : ClsId} {upd : Facets → Option Str → Facets} (h : FacetField name c upd)
    (base : Str) (es : List Val) (f : Facets) (a : Option Atom) (hf : upd f none = f) :
    addFacet v (D + 12) name c a (restrictionV base es f) = .ok (restrictionV base es (upd f (facetText a))) := by
  cases a with
  | none => show Except.ok _ = _; rw [show facetText none = none from rfl, hf]
  | some a =>
    unfold addFacet facetText
    by_cases hb : Blank a
    · have : a.truthy = false := by
        rw [Bool.eq_false_iff]; intro ht; exact (atomTruthy_iff a).1 ht hb
      simp only [this, if_pos hb, hf]
      rfl
    · simp only [(atomTruthy_iff a).2 hb, if_neg hb, if_true]
      have hm : mkSpec v (D + 12) c [(py"value", strV a.toStr)] = .ok (facetV c (some a.toStr)) := by
        cases h <;> rfl
      rw [hm]
      exact set_facet v D h base es f a.toStr

/-- The facets of an object that are present. -/
def facetsOf (t : TypeObj) : Facets :=
  { pattern := facetText (t.pattern.map .str), minInclusive := facetText t.minInclusive,
    minExclusive := facetText t.minExclusive, maxExclusive := facetText t.maxExclusive,
    maxInclusive := facetText t.maxInclusive, fractionDigits := facetText t.fractionDigits,
    totalDigits := facetText t.totalDigits }

theorem facetsOf_shown (t : TypeObj) : (facetsOf t).shown = shownFacets t := by
  simp [Facets.shown, Facets.list, facetsOf, shownFacets, shownFacet_eq]

theorem build_inPlace (t : TypeObj) :
    SpecBuilds (inPlaceType v (D + 12) t) (t.cls.HasName ∧ Texts (shownEnums t))
      (simpleTypeV none (restrictionV (typeRef t.cls) ((shownEnums t).map enumV) (facetsOf t))) := by
  unfold inPlaceType
  refine (xsdType_gives t.cls).bind fun _ => ?_
  refine Gives.bind_ok (a := restrictionV (typeRef t.cls) [] {}) rfl ?_
  have he : SpecBuilds (if t.cls.baseIsSimple = true then
        addEnums v (D + 12) (restrictionV (typeRef t.cls) [] {}) (t.enumeration.getD [])
      else .ok (restrictionV (typeRef t.cls) [] {})) (Texts (shownEnums t))
      (restrictionV (typeRef t.cls) ((shownEnums t).map enumV) {}) := by
    unfold shownEnums
    by_cases hb : t.cls.FirstBaseSimple
    · rw [if_pos ((baseIsSimple_iff _).2 hb), if_pos hb]
      exact build_enums v D _ _ _
    · rw [if_neg (fun h => hb ((baseIsSimple_iff _).1 h)), if_neg hb]
      exact (Gives.ok _).congr (by simp [Texts])
  refine (he.bind (Q := True) fun _ => ?_).congr (by simp)
  refine Gives.of_eq ?_
  rw [build_facet v D .fractionDigits _ _ _ _ rfl, Except_ok_bind, build_facet v D .pattern _ _ _ _ rfl, Except_ok_bind,
    build_facet v D .minInclusive _ _ _ _ rfl, Except_ok_bind, build_facet v D .minExclusive _ _ _ _ rfl, Except_ok_bind,
    build_facet v D .maxExclusive _ _ _ _ rfl, Except_ok_bind, build_facet v D .maxInclusive _ _ _ _ rfl, Except_ok_bind,
    build_facet v D .totalDigits _ _ _ _ rfl, Except_ok_bind]
  rfl

theorem integer_accept (i : Int) : (SType.integer (IntKind.integer.facets {})).accept (.int i) = .ok (.int i) := by
  rw [C01_integer_range, if_pos ⟨trivial, trivial⟩]

theorem GElem.tag_eq (e : GElem) : e.tag = e.written := by
  unfold GElem.tag GElem.written
  split
  · next h => simp [h]
  · next h =>
    rw [if_pos]
    cases ht : e.tagname with
    | none => exact .inl rfl
    | some s =>
      cases s with
      | nil => exact .inr rfl
      | cons c cs => exact absurd ht (h c cs)

/-- The parts of a field's element description before the type is set. -/
def elemStart (e : GElem) : ElementParts :=
  { name := e.written, minOccurs := e.minOccurs, maxOccurs := e.maxOccurs.join, nillable := some e.nillable }

def elemParts (e : GElem) : ElementParts :=
  if e.passedClass then { elemStart e with type := some (typeRef e.type.cls) }
  else { elemStart e with
    simpleType := simpleTypeV none (restrictionV (typeRef e.type.cls) ((shownEnums e.type).map enumV) (facetsOf e.type)) }

theorem set_minOccurs (p : ElementParts) (m : Option Int) :
    setSpec v (D + 12) (elementV { p with minOccurs := none }) py"minOccurs" (optInt m) =
      .ok (elementV { p with minOccurs := m }) := by
  cases m with
  | none => rfl
  | some i =>
    have h : setSpec v (D + 12) (elementV { p with minOccurs := none }) py"minOccurs" (optInt (some i)) =
        (((SType.integer (IntKind.integer.facets {})).accept (.int i)).map Val.atom >>= fun w =>
          .ok (.inst xElement [(py"name", strV p.name), (py"type", optStr p.type), (py"ref", Val.none),
            (py"minOccurs", w), (py"maxOccurs", optBound p.maxOccurs), (py"nillable", optBool p.nillable),
            (py"substitutionGroup", optStr p.substitutionGroup), (py"simpleType", p.simpleType),
            (py"complexType", p.complexType)] none)) := rfl
    rw [h, integer_accept]; rfl

theorem set_maxOccurs (p : ElementParts) (m : Option Bound) :
    setSpec v (D + 12) (elementV { p with maxOccurs := none }) py"maxOccurs" (optBound m) =
      .ok (elementV { p with maxOccurs := m }) := by
  cases m with
  | none => rfl
  | some b => cases b <;> rfl

theorem build_start (e : GElem) : mkSpec v (D + 12) xElement ([(py"name", strV e.tag),
    (py"nillable", .atom (.bool e.nillable)), (py"minOccurs", optInt e.minOccurs)] ++ maxArg e.maxOccurs) =
      .ok (elementV (elemStart e)) := by
  have h1 : ∀ rest, mkSpec v (D + 12) xElement ([(py"name", strV e.tag),
      (py"nillable", .atom (.bool e.nillable)), (py"minOccurs", optInt e.minOccurs)] ++ rest) =
      (setSpec v (D + 12) (elementV { name := e.tag, nillable := some e.nillable }) py"minOccurs" (optInt e.minOccurs) >>=
        fun x => foldE (fun x p => setSpec v (D + 12) x p.1 p.2) x rest) := by
    intro rest; cases e.nillable <;> rfl
  rw [h1, set_minOccurs v D { name := e.tag, nillable := some e.nillable }, Except_ok_bind, GElem.tag_eq]
  unfold elemStart
  cases e.maxOccurs with
  | none => rfl
  | some m =>
    have := set_maxOccurs v D { name := e.written, nillable := some e.nillable, minOccurs := e.minOccurs } m
    simp only [maxArg, foldE]
    rw [this]
    rfl

theorem build_element (e : GElem) : SpecBuilds (createElement v (D + 12) e) (ElemBuilds e) (elementV (elemParts e)) := by
  unfold createElement
  refine Gives.bind_ok (build_start v D e) ?_
  unfold ElemBuilds elemParts
  cases e.passedClass with
  | true =>
    refine ((xsdType_gives e.type.cls).bind (Q := True) fun _ => Gives.of_eq ?_).congr (by simp)
    rfl
  | false =>
    refine ((build_inPlace v D e.type).bind (Q := True) fun _ => Gives.of_eq ?_).congr (by simp)
    rfl

theorem build_attribute (a : GAttr) : SpecBuilds (xsdAttribute v (D + 12) a) a.type.cls.HasName
    (attributeV a.name (typeRef a.type.cls) a.use) := by
  refine ((xsdType_gives a.type.cls).bind (Q := True) fun _ => Gives.of_eq ?_).congr (by simp)
  rfl

theorem build_sequence (es : List GElem) :
    SpecBuilds (foldE (fun s e => do appendSpec v (D + 12) py"elements" s (← createElement v (D + 12) e)) (sequenceV []) es)
      (∀ e ∈ es, ElemBuilds e) (sequenceV (es.map fun e => elementV (elemParts e))) := by
  refine Gives.fold (mk := sequenceV) (g := fun e => elementV (elemParts e)) ?_ es []
  intro items e
  refine ((build_element v D e).bind (Q := True) fun _ => Gives.of_eq ?_).congr (by simp)
  rfl

theorem build_container (name : Option Str) (i : Option Indicator) (as : List Val) (es : List GElem) :
    SpecBuilds (addElements v (D + 12) i (complexTypeV name none [] as) es)
      ((∀ e ∈ es, ElemBuilds e) ∧ (i = none → es = []))
      (complexTypeV name i (es.map fun e => elementV (elemParts e)) as) := by
  cases i with
  | some i =>
    refine Gives.bind_ok (a := sequenceV []) rfl ?_
    refine ((build_sequence v D es).bind (Q := True) fun _ => Gives.of_eq ?_).congr (by simp)
    cases i <;> rfl
  | none =>
    cases es with
    | nil => exact (Gives.of_eq rfl).congr (by simp)
    | cons e es =>
      refine ⟨fun h => absurd (h.2 rfl) (by simp), fun _ => ?_⟩
      by_cases he : ElemBuilds e
      · refine ⟨.attributeError, .inr (.inr rfl), ?_⟩
        show ((createElement v (D + 12) e >>= fun _ => Except.error Exn.attributeError) >>= _) = _
        rw [(build_element v D e).1 he]; rfl
      · obtain ⟨x, hx, h⟩ := (build_element v D e).2 he
        refine ⟨x, hx, ?_⟩
        show ((createElement v (D + 12) e >>= fun _ => Except.error Exn.attributeError) >>= _) = _
        rw [h]; rfl

def complexV (c : GComplex) (named : Bool) : Val :=
  complexTypeV (if named then some (refName c.name) else none) c.indicator
    (c.elements.map fun e => elementV (elemParts e))
    ((c.attributes.map fun a => (a.name, typeRef a.type.cls, a.use)).map fun a => attributeV a.1 a.2.1 a.2.2)

theorem build_attributes (name : Option Str) (as : List GAttr) :
    SpecBuilds (foldE (fun ct a => do appendSpec v (D + 12) py"attributes" ct (← xsdAttribute v (D + 12) a))
        (complexTypeV name none [] []) as)
      (∀ a ∈ as, a.type.cls.HasName)
      (complexTypeV name none [] ((as.map fun a => (a.name, typeRef a.type.cls, a.use)).map
        fun a => attributeV a.1 a.2.1 a.2.2)) := by
  have := Gives.fold (E := BuildErr) (mk := complexTypeV name none [])
    (step := fun ct a => do appendSpec v (D + 12) py"attributes" ct (← xsdAttribute v (D + 12) a))
    (P := fun a : GAttr => a.type.cls.HasName) (g := fun a => attributeV a.name (typeRef a.type.cls) a.use) ?_ as []
  · refine this.congr' Iff.rfl fun _ => ?_
    rw [List.map_map]; rfl
  intro items a
  refine ((build_attribute v D a).bind (Q := True) fun _ => Gives.of_eq ?_).congr (by simp)
  rfl

theorem build_complex (c : GComplex) (named : Bool) :
    SpecBuilds (xsdComplexType v (D + 12) c named) (ComplexBuilds c named) (complexV c named) := by
  have hk : SpecBuilds (if named = true then do .ok [(py"name", strV (← uncapitalize c.name))] else .ok [])
      (named = true → c.name ≠ []) (if named then [(py"name", strV (refName c.name))] else []) := by
    cases named with
    | true => exact ((uncapitalize_gives c.name).andOk fun n => [(py"name", strV n)]).congr (by simp)
    | false => exact (Gives.ok _).congr (by simp)
  have hn : mkSpec v (D + 12) xComplexType (if named then [(py"name", strV (refName c.name))] else []) =
      .ok (complexTypeV (if named then some (refName c.name) else none) none [] []) := by
    cases named <;> rfl
  exact hk.bind fun _ => Gives.bind_ok hn ((build_attributes v D _ c.attributes).bind fun _ =>
    build_container v D _ c.indicator _ c.elements)

def facetsOfSimple (st : GSimple) : Facets :=
  match facetText st.fractionDigits with
  | some d => { fractionDigits := some d }
  | none => { pattern := facetText (st.pattern.map .str) }

def simpleV (st : GSimple) : Val :=
  simpleTypeV (some (refName st.name)) (restrictionV (typeRef st.base) ((st.enumeration.getD []).map enumV)
    (facetsOfSimple st))

theorem build_simple (st : GSimple) : SpecBuilds (xsdSimpleType v (D + 12) st) (SimpleBuilds st) (simpleV st) := by
  refine (uncapitalize_gives st.name).bind fun _ => (xsdType_gives st.base).bind fun _ =>
    Gives.bind_ok (a := restrictionV (typeRef st.base) [] {}) rfl <| (build_enums v D _ _ _).bind fun _ => ?_
  have hf : SpecBuilds (simpleFacet v (D + 12) st (restrictionV (typeRef st.base) ((st.enumeration.getD []).map enumV) {}))
      (∀ a, st.fractionDigits = some a → ¬ Blank a → ∃ s, a = .str s)
      (restrictionV (typeRef st.base) ((st.enumeration.getD []).map enumV)
        (facetsOfSimple st)) := by
    unfold simpleFacet facetsOfSimple
    cases st.fractionDigits with
    | none => exact (Gives.of_eq (build_facet v D .pattern _ _ _ _ rfl)).congr (by simp)
    | some a =>
      by_cases hb : Blank a
      · have ht : a.truthy = false := by
          rw [Bool.eq_false_iff]; intro ht; exact (atomTruthy_iff a).1 ht hb
        simp only [facetText, if_pos hb, ht, Bool.false_eq_true, if_false]
        exact (Gives.of_eq (build_facet v D .pattern _ _ _ _ rfl)).congr (by simp [hb])
      · simp only [facetText, if_neg hb, (atomTruthy_iff a).2 hb, if_true]
        cases a with
        | str s => exact (Gives.of_eq rfl).congr (by simp)
        | none => exact absurd trivial hb
        | _ => exact ⟨by simp [hb], fun _ => ⟨.valueError, .inl rfl, rfl⟩⟩
  refine (hf.bind (Q := True) fun _ => Gives.of_eq ?_).congr (by simp)
  rfl

theorem locationArg_eq (l : Option Str) : locationArg l = (givenLocation l).toList.map fun s => (py"schemaLocation", strV s) := by
  cases l with
  | none => rfl
  | some s => cases s <;> simp [locationArg, givenLocation]

theorem build_import (i : Str × Option Str) :
    mkSpec v (D + 12) xImport ((py"namespace", strV i.1) :: locationArg i.2) = .ok (importV i.1 (givenLocation i.2)) := by
  rw [locationArg_eq]
  cases givenLocation i.2 <;> rfl

theorem build_include (i : Option Str) :
    mkSpec v (D + 12) xInclude (locationArg i) = .ok (includeV (givenLocation i)) := by
  rw [locationArg_eq]
  cases givenLocation i <;> rfl

def topStart (e : GTop) : ElementParts := { name := e.name, substitutionGroup := e.substitutionGroup.map groupRef }

def topParts (e : GTop) : ElementParts :=
  match e.type with
  | .ofClass t => { topStart e with type := some (typeRef t) }
  | .inst (some c) => { topStart e with complexType := complexV c false }
  | .inst none => topStart e

theorem groupArg_eq (g : Option Str) :
    groupArg g = (g.map groupRef).toList.map fun s => (py"substitutionGroup", strV s) := by
  cases g with
  | none => rfl
  | some g =>
    simp only [groupArg, groupRef, Option.map_some, Option.toList_some, List.map_cons, List.map_nil]
    by_cases h : py"sns:" <+: g
    · rw [if_pos h, if_pos (show startsWith py"sns:" g = true from List.isPrefixOf_iff_prefix.2 h)]
    · rw [if_neg h, if_neg fun h' : startsWith py"sns:" g = true => h (List.isPrefixOf_iff_prefix.1 h')]

theorem build_top (e : GTop) :
    SpecBuilds (do
      let x ← mkSpec v (D + 12) xElement ((py"name", strV e.name) :: groupArg e.substitutionGroup)
      topType v (D + 12) e.type x) (TopBuilds e) (elementV (topParts e)) := by
  have h : mkSpec v (D + 12) xElement ((py"name", strV e.name) :: groupArg e.substitutionGroup) =
      .ok (elementV (topStart e)) := by
    rw [groupArg_eq]; unfold topStart
    cases e.substitutionGroup <;> rfl
  refine Gives.bind_ok h ?_
  unfold TopBuilds topParts topType
  cases e.type with
  | ofClass t =>
    refine ((xsdType_gives t).bind (Q := True) fun _ => Gives.of_eq ?_).congr (by simp)
    rfl
  | inst c =>
    cases c with
    | none => exact ⟨fun h => h.elim, fun _ => ⟨.attributeError, .inr (.inr rfl), rfl⟩⟩
    | some c =>
      refine ((build_complex v D c false).bind (Q := True) fun _ => Gives.of_eq ?_).congr (by simp)
      rfl

/-- The description of a schema. -/
def describe (s : GSchema) : Val :=
  schemaV s.targetNamespace (formText s.qualified) (s.imports.map fun i => importV i.1 (givenLocation i.2))
    (s.includes.map fun i => includeV (givenLocation i)) (s.simpleTypes.map simpleV)
    (s.complexTypes.map (complexV · true)) (s.elements.map fun e => elementV (topParts e))

theorem append_import (t f : Str) (is ns ts cs es : List Val) (a : Str) (b : Option Str) :
    appendSpec v (D + 12) py"imports" (schemaV t f is ns ts cs es) (importV a b) =
      .ok (schemaV t f (is ++ [importV a b]) ns ts cs es) := rfl

theorem append_include (t f : Str) (is ns ts cs es : List Val) (b : Option Str) :
    appendSpec v (D + 12) py"includes" (schemaV t f is ns ts cs es) (includeV b) =
      .ok (schemaV t f is (ns ++ [includeV b]) ts cs es) := rfl

theorem append_simple (t f : Str) (is ns ts cs es : List Val) (n : Option Str) (r : Val) :
    appendSpec v (D + 12) py"simpleTypes" (schemaV t f is ns ts cs es) (simpleTypeV n r) =
      .ok (schemaV t f is ns (ts ++ [simpleTypeV n r]) cs es) := rfl

theorem append_complex (t f : Str) (is ns ts cs es : List Val) (n : Option Str) (i : Option Indicator) (a b : List Val) :
    appendSpec v (D + 12) py"complexTypes" (schemaV t f is ns ts cs es) (complexTypeV n i a b) =
      .ok (schemaV t f is ns ts (cs ++ [complexTypeV n i a b]) es) := rfl

theorem append_element (t f : Str) (is ns ts cs es : List Val) (p : ElementParts) :
    appendSpec v (D + 12) py"elements" (schemaV t f is ns ts cs es) (elementV p) =
      .ok (schemaV t f is ns ts cs (es ++ [elementV p])) := rfl

variable (t f : Str)

theorem build_imports (l : List (Str × Option Str)) :
    SpecBuilds (buildImports v (D + 12) (schemaV t f [] [] [] [] []) l) True
      (schemaV t f (l.map fun i => importV i.1 (givenLocation i.2)) [] [] [] []) := by
  have := Gives.fold (E := BuildErr) (mk := fun is => schemaV t f is [] [] [] [])
    (step := fun x i => do
      appendSpec v (D + 12) py"imports" x (← mkSpec v (D + 12) xImport ((py"namespace", strV i.1) :: locationArg i.2)))
    (P := fun _ => True) (g := fun i : Str × Option Str => importV i.1 (givenLocation i.2))
    (fun items i => by
      refine Gives.of_eq ?_
      show (mkSpec v (D + 12) xImport ((py"namespace", strV i.1) :: locationArg i.2) >>= fun w =>
        appendSpec v (D + 12) py"imports" (schemaV t f items [] [] [] []) w) = _
      rw [build_import, Except_ok_bind, append_import]) l []
  exact this.congr (by simp)

theorem build_includes (is : List Val) (l : List (Option Str)) :
    SpecBuilds (buildIncludes v (D + 12) (schemaV t f is [] [] [] []) l) True
      (schemaV t f is (l.map fun i => includeV (givenLocation i)) [] [] []) := by
  have := Gives.fold (E := BuildErr) (mk := fun ns => schemaV t f is ns [] [] [])
    (step := fun x i => do appendSpec v (D + 12) py"includes" x (← mkSpec v (D + 12) xInclude (locationArg i)))
    (P := fun _ => True) (g := fun i : Option Str => includeV (givenLocation i))
    (fun items i => by
      refine Gives.of_eq ?_
      show (mkSpec v (D + 12) xInclude (locationArg i) >>= fun w =>
        appendSpec v (D + 12) py"includes" (schemaV t f is items [] [] []) w) = _
      rw [build_include, Except_ok_bind, append_include]) l []
  exact this.congr (by simp)

theorem build_simples (is ns : List Val) (l : List GSimple) :
    SpecBuilds (foldE (fun x st => do appendSpec v (D + 12) py"simpleTypes" x (← xsdSimpleType v (D + 12) st))
        (schemaV t f is ns [] [] []) l) (∀ st ∈ l, SimpleBuilds st)
      (schemaV t f is ns (l.map simpleV) [] []) := by
  have := Gives.fold (E := BuildErr) (mk := fun ts => schemaV t f is ns ts [] [])
    (step := fun x st => do appendSpec v (D + 12) py"simpleTypes" x (← xsdSimpleType v (D + 12) st))
    (P := SimpleBuilds) (g := simpleV)
    (fun items st => ((build_simple v D st).bind (Q := True)
      fun _ => Gives.of_eq (append_simple v D _ _ _ _ _ _ _ _ _)).congr (by simp)) l []
  exact this

theorem build_complexes (is ns ts : List Val) (l : List GComplex) :
    SpecBuilds (foldE (fun x ct => do appendSpec v (D + 12) py"complexTypes" x (← xsdComplexType v (D + 12) ct true))
        (schemaV t f is ns ts [] []) l) (∀ c ∈ l, ComplexBuilds c true)
      (schemaV t f is ns ts (l.map (complexV · true)) []) := by
  have := Gives.fold (E := BuildErr) (mk := fun cs => schemaV t f is ns ts cs [])
    (step := fun x ct => do appendSpec v (D + 12) py"complexTypes" x (← xsdComplexType v (D + 12) ct true))
    (P := (ComplexBuilds · true)) (g := (complexV · true))
    (fun items c => ((build_complex v D c true).bind (Q := True)
      fun _ => Gives.of_eq (append_complex v D _ _ _ _ _ _ _ _ _ _ _)).congr (by simp)) l []
  exact this

theorem build_tops (is ns ts cs : List Val) (l : List GTop) :
    SpecBuilds (generateElements v (D + 12) (schemaV t f is ns ts cs []) l) (∀ e ∈ l, TopBuilds e)
      (schemaV t f is ns ts cs (l.map fun e => elementV (topParts e))) := by
  have := Gives.fold (E := BuildErr) (mk := fun es => schemaV t f is ns ts cs es)
    (step := fun s e => do
      let x ← mkSpec v (D + 12) xElement ((py"name", strV e.name) :: groupArg e.substitutionGroup)
      let x ← topType v (D + 12) e.type x
      appendSpec v (D + 12) py"elements" s x)
    (P := TopBuilds) (g := fun e => elementV (topParts e))
    (fun items e => by
      have := ((build_top v D e).bind (f := fun x => appendSpec v (D + 12) py"elements"
        (schemaV t f is ns ts cs items) x) (Q := True)
        (b := schemaV t f is ns ts cs (items ++ [elementV (topParts e)]))
        fun _ => Gives.of_eq (append_element v D _ _ _ _ _ _ _ _)).congr (Q := TopBuilds e) (by simp)
      rw [bind_assoc'] at this
      exact this) l []
  exact this

theorem build_schema (s : GSchema) : SpecBuilds (generateXsdspec v (D + 12) s) (Buildable s) (describe s) := by
  unfold generateXsdspec
  have h0 : mkSpec v (D + 12) xSchema [(py"targetNamespace", strV s.targetNamespace),
      (py"elementFormDefault", strV (formText s.qualified))] =
      .ok (schemaV s.targetNamespace (formText s.qualified) [] [] [] [] []) := by
    cases s.qualified <;> rfl
  refine (Gives.bind_ok h0 <| (build_imports v D _ _ s.imports).bind fun _ => (build_includes v D _ _ _ s.includes).bind
    fun _ => (build_simples v D _ _ _ _ s.simpleTypes).bind fun _ => (build_complexes v D _ _ _ _ _ s.complexTypes).bind
    fun _ => build_tops v D _ _ _ _ _ _ s.elements).congr ?_
  unfold Buildable
  simp

end

end Soapfish
