import Verif.Describe
import Verif.WsdlLookup
import Verif.GenerateBuild
/-
What the templates see of a description made by the XSD generator.
-/
namespace Soapfish

/-! ### Descriptions that are the same look the same -/

theorem readAttr_erase (v : Val) (n : Str) : readAttr (v.eraseWith true) n = (readAttr v n).map (Val.eraseWith true) := by
  cases v with
  | inst c fs x => exact eraseFields_get? true fs n
  | _ => rfl

theorem readStr_erase (v : Val) (n : Str) : readStr (v.eraseWith true) n = readStr v n := by
  unfold readStr
  rw [readAttr_erase]
  cases readAttr v n with
  | none => rfl
  | some w => cases w <;> rfl

theorem readInt_erase (v : Val) (n : Str) : readInt (v.eraseWith true) n = readInt v n := by
  unfold readInt
  rw [readAttr_erase]
  cases readAttr v n with
  | none => rfl
  | some w => cases w <;> rfl

theorem readBound_erase (v : Val) (n : Str) : readBound (v.eraseWith true) n = readBound v n := by
  unfold readBound
  rw [readAttr_erase]
  cases readAttr v n with
  | none => rfl
  | some w => cases w <;> rfl

theorem readBool_erase (v : Val) (n : Str) : readBool (v.eraseWith true) n = readBool v n := by
  unfold readBool
  rw [readAttr_erase]
  cases readAttr v n with
  | none => rfl
  | some w => cases w <;> rfl

theorem readChild_erase (v : Val) (n : Str) :
    readChild (v.eraseWith true) n = (readChild v n).map (Val.eraseWith true) := by
  unfold readChild
  rw [readAttr_erase]
  cases readAttr v n with
  | none => rfl
  | some w => cases w <;> rfl

theorem readList_erase (v : Val) (n : Str) :
    readList (v.eraseWith true) n = (readList v n).map (Val.eraseWith true) := by
  unfold readList
  rw [readAttr_erase]
  cases readAttr v n with
  | none => rfl
  | some w => cases w <;> simp [Val.eraseWith, eraseList_map]

theorem readFacet_erase (v : Val) (n : Str) : readFacet (v.eraseWith true) n = readFacet v n := by
  unfold readFacet
  rw [readChild_erase]
  cases readChild v n with
  | none => rfl
  | some w => simp [readStr_erase]

theorem readRestriction_erase (v : Val) : readRestriction (v.eraseWith true) = readRestriction v := by
  simp only [readRestriction, readStr_erase, readList_erase, readFacet_erase, List.map_map]
  congr
  funext w
  exact readStr_erase w _

theorem optMap_erase {α : Type} {f : Val → α} (hf : ∀ v, f (v.eraseWith true) = f v) (o : Option Val) :
    (o.map (Val.eraseWith true)).map f = o.map f := by
  cases o with
  | none => rfl
  | some v => simp [hf]

theorem listMap_erase {α : Type} {f : Val → α} (hf : ∀ v, f (v.eraseWith true) = f v) (l : List Val) :
    (l.map (Val.eraseWith true)).map f = l.map f := by
  rw [List.map_map]
  exact List.map_congr_left fun v _ => hf v

theorem strMap_erase (n : Str) (l : List Val) :
    (l.map (Val.eraseWith true)).map (fun v => readStr v n) = l.map fun v => readStr v n :=
  listMap_erase (fun v => readStr_erase v n) l

theorem readSimple_erase (v : Val) : readSimple (v.eraseWith true) = readSimple v := by
  simp only [readSimple, readStr_erase, readChild_erase, optMap_erase readRestriction_erase, Option.isSome_map]

theorem readElement_erase (v : Val) : readElement (v.eraseWith true) = readElement v := by
  simp only [readElement, readStr_erase, readInt_erase, readBound_erase, readBool_erase, readChild_erase,
    optMap_erase readSimple_erase]

theorem readAttribute_erase (v : Val) : readAttribute (v.eraseWith true) = readAttribute v := by
  simp only [readAttribute, readStr_erase, readChild_erase, Option.isSome_map]

theorem readElements_erase (v : Val) : readElements (v.eraseWith true) = readElements v := by
  simp only [readElements, readList_erase, listMap_erase readElement_erase]

theorem readContent_erase (v : Val) : readContent (v.eraseWith true) = readContent v := by
  simp only [readContent, readList_erase, readChild_erase, optMap_erase readElements_erase,
    listMap_erase readAttribute_erase, strMap_erase]

theorem readDerivation_erase (v : Val) : readDerivation (v.eraseWith true) = readDerivation v := by
  simp only [readDerivation, readChild_erase]
  rw [optMap_erase, optMap_erase] <;> (intro w; simp only [readStr_erase, readContent_erase])

theorem readComplex_erase (v : Val) : readComplex (v.eraseWith true) = readComplex v := by
  simp only [readComplex, readStr_erase, readContent_erase, readChild_erase, optMap_erase readDerivation_erase]

theorem readTop_erase (v : Val) : readTop (v.eraseWith true) = readTop v := by
  simp only [readTop, readStr_erase, readChild_erase, optMap_erase readComplex_erase, Option.isSome_map]

theorem readSchema_erase (v : Val) : readSchema (v.eraseWith true) = readSchema v := by
  simp only [readSchema, readStr_erase, readList_erase, strMap_erase,
    listMap_erase readSimple_erase, listMap_erase readComplex_erase, listMap_erase readTop_erase]
  congr 1
  · refine listMap_erase (fun w => ?_) _
    simp only [readStr_erase, readList_erase, listMap_erase readAttribute_erase]
  · refine listMap_erase (fun w => ?_) _
    simp only [readStr_erase, readChild_erase, optMap_erase readElements_erase]

theorem readSchema_same {v w : Val} (h : v.Same w) : readSchema v = readSchema w := by
  rw [← readSchema_erase v, ← readSchema_erase w, show v.eraseWith true = w.eraseWith true from h]

/-! ### The generator's descriptions -/

/-- The restriction of an in-place type. -/
def restrictionOf (base : Str) (enums : List Atom) (f : Facets) : DRestriction where
  base := some base
  enumerations := enums.map Atom.text?
  pattern := f.pattern.map some
  minInclusive := f.minInclusive.map some
  minExclusive := f.minExclusive.map some
  maxExclusive := f.maxExclusive.map some
  maxInclusive := f.maxInclusive.map some
  fractionDigits := f.fractionDigits.map some
  totalDigits := f.totalDigits.map some

theorem read_optStr {n : Str} {v : Val} {s : Option Str} (h : readAttr v n = some (optStr s)) : readStr v n = s := by
  unfold readStr
  rw [h]
  cases s <;> rfl

theorem read_facetV {n : Str} {v : Val} {c : ClsId} {s : Option Str} (h : readAttr v n = some (facetV c s)) :
    readFacet v n = s.map some := by
  unfold readFacet readChild
  rw [h]
  cases s <;> rfl

theorem read_restriction (base : Str) (enums : List Atom) (f : Facets) :
    readRestriction (restrictionV base (enums.map enumV) f) = restrictionOf base enums f := by
  have he : ((enums.map enumV).map fun v => readStr v py"value") = enums.map Atom.text? := by
    rw [List.map_map]
    exact List.map_congr_left fun a _ => read_optStr rfl
  unfold readRestriction restrictionOf
  congr 1
  · exact read_facetV rfl
  · exact read_facetV rfl
  · exact read_facetV rfl
  · exact read_facetV rfl
  · exact read_facetV rfl
  · exact read_facetV rfl
  · exact read_facetV rfl

/-- What the templates see of an element of a type. -/
def elementOf (e : GElem) : DElement where
  name := some e.written
  type := if e.passedClass then some (typeRef e.type.cls) else none
  minOccurs := e.minOccurs
  maxOccurs := e.maxOccurs.join
  nillable := e.nillable
  simpleType := if e.passedClass then none
    else some { restriction := some (restrictionOf (typeRef e.type.cls) (shownEnums e.type) (facetsOf e.type)) }

theorem read_optInt {n : Str} {v : Val} {i : Option Int} (h : readAttr v n = some (optInt i)) : readInt v n = i := by
  unfold readInt
  rw [h]
  cases i <;> rfl

theorem read_optBound {n : Str} {v : Val} {i : Option Bound} (h : readAttr v n = some (optBound i)) : readBound v n = i := by
  unfold readBound
  rw [h]
  cases i with
  | none => rfl
  | some b => cases b <;> rfl

theorem read_simpleType (name : Option Str) (base : Str) (enums : List Atom) (f : Facets) :
    readSimple (simpleTypeV name (restrictionV base (enums.map enumV) f)) =
      { name := name, restriction := some (restrictionOf base enums f) } := by
  unfold readSimple
  congr 1
  · exact read_optStr rfl
  · show some (readRestriction (restrictionV base (enums.map enumV) f)) = _
    rw [read_restriction]

theorem read_element (e : GElem) : readElement (elementV (elemParts e)) = elementOf e := by
  unfold readElement elementOf elemParts elemStart
  cases e.passedClass with
  | true =>
    congr 1
    · exact read_optInt rfl
    · exact read_optBound rfl
  | false =>
    congr 1
    · exact read_optInt rfl
    · exact read_optBound rfl
    · show some (readSimple (simpleTypeV none _)) = _
      rw [read_simpleType]; rfl

/-- What the templates see of the content of a type. -/
def contentOf (c : GComplex) : DContent where
  sequence := if c.indicator = some .sequence then some (c.elements.map elementOf) else none
  choice := if c.indicator = some .choice then some (c.elements.map elementOf) else none
  all := if c.indicator = some .all then some (c.elements.map elementOf) else none
  attributes := (c.attributes.map fun a => attributeV a.name (typeRef a.type.cls) a.use).map readAttribute

theorem read_container (v : Val) (n : Str) (i : Option Indicator) (es : List GElem) (j : Indicator)
    (h : readAttr v n = some (containerV i (es.map fun e => elementV (elemParts e)) j)) :
    (readChild v n).map readElements = if i = some j then some (es.map elementOf) else none := by
  unfold readChild
  rw [h]
  unfold containerV
  by_cases hi : i = some j
  · rw [if_pos hi, if_pos hi]
    show some (((es.map fun e => elementV (elemParts e))).map readElement) = _
    rw [List.map_map]
    exact congrArg some (List.map_congr_left fun e _ => read_element e)
  · rw [if_neg hi, if_neg hi]; rfl

theorem read_complex (c : GComplex) (named : Bool) : readComplex (complexV c named) =
    { name := if named then some (refName c.name) else none, content := contentOf c } := by
  unfold readComplex
  congr 1
  · exact read_optStr rfl
  · unfold readContent contentOf
    congr 1
    · exact read_container _ _ _ _ _ rfl
    · exact read_container _ _ _ _ _ rfl
    · exact read_container _ _ _ _ _ rfl
    · show (((c.attributes.map _).map _).map readAttribute) = _
      rw [List.map_map (g := fun a : Str × Str × Str => _)]; rfl

/-- What the templates see of a simple type. -/
def simpleOf (st : GSimple) : DSimple where
  name := some (refName st.name)
  restriction := some (restrictionOf (typeRef st.base) (st.enumeration.getD []) (facetsOfSimple st))

/-- What the templates see of a top-level element. -/
def topOf (t : GTop) : DTop where
  name := some t.name
  type := match t.type with
    | .ofClass c => some (typeRef c)
    | _ => none
  complexType := match t.type with
    | .inst (some c) => some { content := contentOf c }
    | _ => none
  substitutionGroup := t.substitutionGroup.map groupRef

theorem read_top (t : GTop) : readTop (elementV (topParts t)) = topOf t := by
  unfold topParts topOf topStart
  cases t.type with
  | ofClass c =>
    unfold readTop
    congr 1
    exact read_optStr rfl
  | inst o =>
    cases o with
    | none =>
      unfold readTop
      congr 1
      exact read_optStr rfl
    | some c =>
      unfold readTop
      congr 1
      · show some (readComplex (complexV c false)) = _
        rw [read_complex]; rfl
      · exact read_optStr rfl

/-- What the templates see of a schema. -/
def schemaOf (s : GSchema) : DSchema where
  targetNamespace := some s.targetNamespace
  elementFormDefault := some (formText s.qualified)
  imports := s.imports.map fun i => some i.1
  includes := s.includes.map givenLocation
  simpleTypes := s.simpleTypes.map simpleOf
  complexTypes := s.complexTypes.map fun c => { name := some (refName c.name), content := contentOf c }
  elements := s.elements.map topOf

theorem read_schema (s : GSchema) : readSchema (describe s) = schemaOf s := by
  unfold readSchema schemaOf
  congr 1
  · show (s.imports.map fun i => importV i.1 (givenLocation i.2)).map _ = _
    rw [List.map_map]; rfl
  · show (s.includes.map fun i => includeV (givenLocation i)).map _ = _
    rw [List.map_map]
    exact List.map_congr_left fun i _ => read_optStr rfl
  · show (s.simpleTypes.map simpleV).map _ = _
    rw [List.map_map]
    exact List.map_congr_left fun st _ => read_simpleType _ _ _ _
  · show (s.complexTypes.map (complexV · true)).map _ = _
    rw [List.map_map]
    exact List.map_congr_left fun c _ => read_complex c true
  · show (s.elements.map fun e => elementV (topParts e)).map _ = _
    rw [List.map_map]
    exact List.map_congr_left fun t _ => read_top t

end Soapfish
