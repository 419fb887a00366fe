import Verif.Xml
/-
What of an XSD document the generators look at, for stating that the rest makes no difference (C134).
-/
namespace Soapfish

/-- The parts of an XSD document that are told apart. -/
inductive Construct where
  | schema | import_ | include_ | simpleType | facets | enumeration | pattern | bound | list | element | particles
  | attribute | attributeGroup | attributeGroupRef | derivation | complexContent | complexType | group
  deriving DecidableEq

/-- The local names of the elements of XML Schema -/
def xsdVocabulary : List Str :=
  [py"all", py"annotation", py"any", py"anyAttribute", py"appinfo", py"attribute", py"attributeGroup", py"choice",
   py"complexContent", py"complexType", py"documentation", py"element", py"enumeration", py"extension", py"field",
   py"fractionDigits", py"group", py"import", py"include", py"key", py"keyref", py"length", py"list", py"maxExclusive",
   py"maxInclusive", py"maxLength", py"minExclusive", py"minInclusive", py"minLength", py"notation", py"pattern",
   py"redefine", py"restriction", py"schema", py"selector", py"sequence", py"simpleContent", py"simpleType",
   py"totalDigits", py"union", py"unique", py"whiteSpace"]

/-- The children that are looked at, and what they are. -/
def Construct.children : Construct → List (Str × Construct)
  | .schema => [(py"import", .import_), (py"include", .include_), (py"simpleType", .simpleType), (py"group", .group),
      (py"attributeGroup", .attributeGroup), (py"complexType", .complexType), (py"element", .element)]
  | .simpleType => [(py"restriction", .facets), (py"list", .list)]
  | .facets => [(py"enumeration", .enumeration), (py"pattern", .pattern), (py"minInclusive", .bound),
      (py"minExclusive", .bound), (py"maxInclusive", .bound), (py"maxExclusive", .bound), (py"fractionDigits", .bound),
      (py"totalDigits", .bound), (py"length", .bound), (py"minLength", .bound), (py"maxLength", .bound),
      (py"whiteSpace", .bound)]
  | .element => [(py"simpleType", .simpleType), (py"complexType", .complexType)]
  | .particles => [(py"element", .element)]
  | .attribute => [(py"simpleType", .simpleType)]
  | .attributeGroup => [(py"attribute", .attribute)]
  | .derivation => [(py"sequence", .particles), (py"attribute", .attribute), (py"attributeGroup", .attributeGroupRef)]
  | .complexContent => [(py"extension", .derivation), (py"restriction", .derivation)]
  | .complexType => [(py"sequence", .particles), (py"choice", .particles), (py"all", .particles),
      (py"complexContent", .complexContent), (py"attribute", .attribute), (py"attributeGroup", .attributeGroupRef)]
  | .group => [(py"sequence", .particles)]
  | _ => []

/-- The attributes that are looked at. -/
def Construct.attributes : Construct → List Str
  | .schema => [py"targetNamespace", py"elementFormDefault"]
  | .import_ => [py"schemaLocation", py"namespace"]
  | .include_ => [py"schemaLocation"]
  | .simpleType | .attributeGroup | .complexType | .group => [py"name"]
  | .facets | .derivation => [py"base"]
  | .enumeration | .pattern | .bound => [py"value"]
  | .element => [py"name", py"type", py"ref", py"minOccurs", py"maxOccurs", py"nillable", py"substitutionGroup"]
  | .attribute => [py"name", py"ref", py"type", py"use"]
  | .attributeGroupRef => [py"ref"]
  | .complexContent => [py"mixed"]
  | .list | .particles => []

/-- The attributes of two elements, as far as they are looked at; `xsi:nil` is looked at everywhere. -/
def SameAttributes (c : Construct) (a a' : List (QName × Str)) : Prop :=
  attrGet a qNil = attrGet a' qNil ∧ ∀ n ∈ c.attributes, attrGet a ⟨none, n⟩ = attrGet a' ⟨none, n⟩

/-- A comment, or an element of XML Schema that is not looked at in this place. -/
def Overlooked (c : Construct) (u : Xml) : Prop :=
  u = .comment ∨ ∃ q a t k, u = .elem q a t k ∧ q.loc ∈ xsdVocabulary ∧ q.loc ∉ c.children.map (·.1)

/-- Children of a part of two documents that differ, here and further down, only by what is not looked at. -/
inductive SameParts : Construct → List Xml → List Xml → Prop where
  | nil {c} : SameParts c [] []
  | left {c u ks ks'} : Overlooked c u → SameParts c ks ks' → SameParts c (u :: ks) ks'
  | right {c u ks ks'} : Overlooked c u → SameParts c ks ks' → SameParts c ks (u :: ks')
  | both {c c' q q' a a' t t' k k' ks ks'} : (q.loc, c') ∈ c.children → q.loc = q'.loc → SameAttributes c' a a' →
      SameParts c' k k' → SameParts c ks ks' →
      SameParts c (.elem q a t k :: ks) (.elem q' a' t' k' :: ks')

/-- XSD documents that differ only by what is not looked at. -/
def SameXsd (x y : Xml) : Prop :=
  ∃ q a t k q' a' t' k', x = .elem q a t k ∧ y = .elem q' a' t' k' ∧ SameAttributes .schema a a' ∧
    SameParts .schema k k'

end Soapfish
