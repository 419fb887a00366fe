import Verif.Generate
import Verif.Spec.Dispatch
/-
Vocabulary for stating what a generated XSD document looks like and when one can be generated.
-/
namespace Soapfish

/-- A class name with its first letter in lower case; 'QName' stays. -/
def refName (n : Str) : Str :=
  if n = py"QName" then n
  else match n with
    | [] => []
    | c :: cs => (if 65 ≤ c.toNat ∧ c.toNat ≤ 90 then Char.ofNat (c.toNat + 32) else c) :: cs

/-- How the built-in types are referred to. -/
def builtinRef : Builtin → Str
  | .string => py"xsd:string"
  | .boolean => py"xsd:boolean"
  | .date => py"xsd:date"
  | .dateTime => py"xsd:dateTime"
  | .time => py"xsd:time"
  | .decimal => py"xsd:decimal"
  | .double => py"xsd:double"
  | .float => py"xsd:float"
  | .int .integer => py"xsd:integer"
  | .int .nonNegativeInteger => py"sns:nonNegativeInteger"
  | .int .nonPositiveInteger => py"sns:nonPositiveInteger"
  | .int .negativeInteger => py"sns:negativeInteger"
  | .int .positiveInteger => py"sns:positiveInteger"
  | .int .long => py"xsd:long"
  | .int .int => py"xsd:int"
  | .int .short => py"xsd:short"
  | .int .byte => py"xsd:byte"
  | .int .unsignedLong => py"xsd:unsignedLong"
  | .int .unsignedInt => py"xsd:unsignedInt"
  | .int .unsignedShort => py"xsd:unsignedShort"
  | .int .unsignedByte => py"xsd:unsignedByte"
  | .maxOccurs => py"xsd:maxOccurs"
  | .list => py"xsd:list"
  | .anyURI => py"xsd:anyURI"
  | .qname => py"xsd:QName"
  | .nmtoken => py"sns:nMTOKEN"
  | .nmtokens => py"sns:nMTOKENS"
  | .base64Binary => py"xsd:base64Binary"
  | .duration => py"xsd:duration"
  | .anyType => py"xsd:anyType"

/-- How a type is referred to: a user class counts as built in exactly if it derives directly from SimpleType. -/
def typeRef : TypeCls → Str
  | .builtin b => builtinRef b
  | .derived n .simpleType => py"xsd:" ++ refName n
  | .derived n _ => py"sns:" ++ refName n
  | .simpleType => py"sns:simpleType"
  | .complex n => py"sns:" ++ refName n

/-- The class has a name. -/
def TypeCls.HasName : TypeCls → Prop
  | .derived n _ => n ≠ []
  | .complex n => n ≠ []
  | _ => True

/-- The class derives directly from SimpleType. -/
def TypeCls.FirstBaseSimple : TypeCls → Prop
  | .builtin b => b ∈ [.string, .boolean, .date, .dateTime, .time, .decimal, .maxOccurs, .list]
  | .derived _ b => b = .simpleType
  | _ => False

instance (t : TypeCls) : Decidable t.FirstBaseSimple := by
  cases t <;> simp only [TypeCls.FirstBaseSimple] <;> infer_instance

/-- Facet values that are taken for absent: None, False, zero and the empty text. -/
def Blank : Atom → Prop
  | .none => True
  | .bool b => b = false
  | .int i => i = 0
  | .float (.fin d) => d.coeff = 0
  | .decimal d => d.coeff = 0
  | .str s => s = []
  | _ => False

instance (a : Atom) : Decidable (Blank a) := by
  cases a with
  | float f => cases f <;> simp only [Blank] <;> infer_instance
  | _ => simp only [Blank]; infer_instance

/-! ### Nodes -/

/-- An element of the XSD namespace with plain attributes. -/
def xsdNode (name : Str) (attrs : List (Str × Str)) (kids : List Xml) : Xml :=
  .elem ⟨some nsXsd, name⟩ (attrs.map fun p => (⟨none, p.1⟩, p.2)) none kids

/-- `<xsd:name value="..."/>` -/
def facetNode (name value : Str) : Xml := xsdNode name [(py"value", value)] []

/-- `name="..."` if there is a value -/
def optAttr (name : Str) : Option Str → List (Str × Str)
  | some s => [(name, s)]
  | none => []

/-- A facet, if present. -/
def shownFacet (name : Str) : Option Atom → List (Str × Str)
  | some a => if Blank a then [] else [(name, a.toStr)]
  | none => []

/-- The facets written for a restriction in place, in document order. -/
def shownFacets (t : TypeObj) : List (Str × Str) :=
  shownFacet py"pattern" (t.pattern.map .str) ++ shownFacet py"minInclusive" t.minInclusive ++
  shownFacet py"minExclusive" t.minExclusive ++ shownFacet py"maxExclusive" t.maxExclusive ++
  shownFacet py"maxInclusive" t.maxInclusive ++ shownFacet py"fractionDigits" t.fractionDigits ++
  shownFacet py"totalDigits" t.totalDigits

/-- The enumeration written for a restriction in place. -/
def shownEnums (t : TypeObj) : List Atom := if t.cls.FirstBaseSimple then t.enumeration.getD [] else []

def restrictionDoc (base : Str) (enums : List Atom) (facets : List (Str × Str)) : Xml :=
  xsdNode py"restriction" [(py"base", base)]
    (enums.map (fun a => facetNode py"enumeration" a.toStr) ++ facets.map fun p => facetNode p.1 p.2)

/-- The anonymous simple type of an element. -/
def inPlaceDoc (t : TypeObj) : Xml :=
  xsdNode py"simpleType" [] [restrictionDoc (typeRef t.cls) (shownEnums t) (shownFacets t)]

/-- The name an element is written with. -/
def GElem.written (e : GElem) : Str := if e.tagname = none ∨ e.tagname = some [] then e.name else e.tagname.getD []

def boolText (b : Bool) : Str := if b then py"true" else py"false"

def boundText : Bound → Str
  | .int n => intStr n
  | .unbounded => py"unbounded"

/-- The element declaration of a field. -/
def elementDoc (e : GElem) : Xml :=
  xsdNode py"element"
    ([(py"name", e.written)] ++ (if e.passedClass then [(py"type", typeRef e.type.cls)] else []) ++
      optAttr py"minOccurs" (e.minOccurs.map intStr) ++ optAttr py"maxOccurs" (e.maxOccurs.join.map boundText) ++
      [(py"nillable", boolText e.nillable)])
    (if e.passedClass then [] else [inPlaceDoc e.type])

def Indicator.tagName : Indicator → Str
  | .sequence => py"sequence"
  | .choice => py"choice"
  | .all => py"all"

/-- The description of a complex type without attributes, named or not. -/
def complexDoc (c : GComplex) (named : Bool) : Xml :=
  xsdNode py"complexType" (if named then [(py"name", refName c.name)] else [])
    (c.indicator.toList.map fun i => xsdNode i.tagName [] (c.elements.map elementDoc))

/-- The fraction digits of a simple type or else its pattern, if present. -/
def simpleFacets (st : GSimple) : List (Str × Str) :=
  match shownFacet py"fractionDigits" st.fractionDigits with
  | [] => shownFacet py"pattern" (st.pattern.map .str)
  | fs => fs

/-- The description of a named simple type. -/
def simpleDoc (st : GSimple) : Xml :=
  xsdNode py"simpleType" [(py"name", refName st.name)]
    [restrictionDoc (typeRef st.base) (st.enumeration.getD []) (simpleFacets st)]

/-- A location, if it is given and not empty. -/
def givenLocation (l : Option Str) : Option Str := if l = some [] then none else l

def importDoc (i : Str × Option Str) : Xml :=
  xsdNode py"import" (optAttr py"schemaLocation" (givenLocation i.2) ++ [(py"namespace", i.1)]) []

def includeDoc (i : Option Str) : Xml := xsdNode py"include" (optAttr py"schemaLocation" (givenLocation i)) []

/-- The substitution group with the prefix of the schema. -/
def groupRef (g : Str) : Str := if py"sns:" <+: g then g else py"sns:" ++ g

def topDoc (e : GTop) : Xml :=
  match e.type with
  | .ofClass t =>
    xsdNode py"element" ([(py"name", e.name), (py"type", typeRef t)] ++
      optAttr py"substitutionGroup" (e.substitutionGroup.map groupRef)) []
  | .inst (some c) =>
    xsdNode py"element" ([(py"name", e.name)] ++ optAttr py"substitutionGroup" (e.substitutionGroup.map groupRef))
      [complexDoc c false]
  | .inst none => .comment

/-- The XSD document of a schema. -/
def document (s : GSchema) : Xml :=
  xsdNode py"schema"
    [(py"targetNamespace", s.targetNamespace),
      (py"elementFormDefault", if s.qualified then py"qualified" else py"unqualified")]
    (s.imports.map importDoc ++ s.includes.map includeDoc ++ s.simpleTypes.map simpleDoc ++
      s.complexTypes.map (complexDoc · true) ++ s.elements.map topDoc)

/-! ### When the description can be built -/

/-- Enumeration values are texts. -/
def Texts (as : List Atom) : Prop := ∀ a ∈ as, a = .none ∨ ∃ s, a = .str s

def ElemBuilds (e : GElem) : Prop :=
  e.type.cls.HasName ∧ (e.passedClass = false → Texts (shownEnums e.type))

def ComplexBuilds (c : GComplex) (named : Bool) : Prop :=
  (named = true → c.name ≠ []) ∧ (∀ a ∈ c.attributes, a.type.cls.HasName) ∧ (∀ e ∈ c.elements, ElemBuilds e) ∧
  (c.indicator = none → c.elements = [])

/-- A number of fraction digits is refused because it is not a text. -/
def SimpleBuilds (st : GSimple) : Prop :=
  st.name ≠ [] ∧ st.base.HasName ∧ Texts (st.enumeration.getD []) ∧
  (∀ a, st.fractionDigits = some a → ¬ Blank a → ∃ s, a = .str s)

def TopBuilds (e : GTop) : Prop :=
  match e.type with
  | .ofClass t => t.HasName
  | .inst (some c) => ComplexBuilds c false
  | .inst none => False

def Buildable (s : GSchema) : Prop :=
  (∀ st ∈ s.simpleTypes, SimpleBuilds st) ∧ (∀ c ∈ s.complexTypes, ComplexBuilds c true) ∧
  (∀ e ∈ s.elements, TopBuilds e)

/-! ### When a built description can be written -/

def EnumsWrite (as : List Atom) : Prop := ∀ a ∈ as, ∃ s, a = .str s ∧ XmlOk s

def ElemWrites (e : GElem) : Prop :=
  XmlOk e.written ∧ XmlOk (typeRef e.type.cls) ∧
  (e.passedClass = false → EnumsWrite (shownEnums e.type) ∧ ∀ p ∈ shownFacets e.type, XmlOk p.2)

/-- Attributes can never be written. -/
def ComplexWrites (c : GComplex) (named : Bool) : Prop :=
  c.attributes = [] ∧ (named = true → XmlOk (refName c.name)) ∧ ∀ e ∈ c.elements, ElemWrites e

def SimpleWrites (st : GSimple) : Prop :=
  XmlOk (refName st.name) ∧ XmlOk (typeRef st.base) ∧ EnumsWrite (st.enumeration.getD []) ∧
  ∀ p ∈ simpleFacets st, XmlOk p.2

def ImportWrites (i : Str × Option Str) : Prop := XmlOk i.1 ∧ ∀ l, givenLocation i.2 = some l → XmlOk l

/-- An include needs a location. -/
def IncludeWrites (i : Option Str) : Prop := ∃ l, givenLocation i = some l ∧ XmlOk l

def TopWrites (e : GTop) : Prop :=
  XmlOk e.name ∧ (∀ g, e.substitutionGroup = some g → XmlOk g) ∧
  match e.type with
  | .ofClass t => XmlOk (typeRef t)
  | .inst (some c) => ComplexWrites c false
  | .inst none => True

def Writable (s : GSchema) : Prop :=
  XmlOk s.targetNamespace ∧ (∀ i ∈ s.imports, ImportWrites i) ∧ (∀ i ∈ s.includes, IncludeWrites i) ∧
  (∀ st ∈ s.simpleTypes, SimpleWrites st) ∧ (∀ c ∈ s.complexTypes, ComplexWrites c true) ∧
  (∀ e ∈ s.elements, TopWrites e)

/-! ### Reading a generated document -/

/-- The children of an element. -/
def Xml.children : Xml → List Xml
  | .elem _ _ _ ks => ks
  | _ => []

/-- The value of a plain attribute. -/
def Xml.plainAttr (x : Xml) (name : Str) : Option Str :=
  match x with
  | .elem _ a _ _ => (a.find? fun p => p.1 = ⟨none, name⟩).map (·.2)
  | _ => none

/-- The element's name in the XSD namespace. -/
def Xml.IsXsd (x : Xml) (name : Str) : Prop := ∃ a t ks, x = .elem ⟨some nsXsd, name⟩ a t ks

/-- The facets an object has, by name. -/
inductive HasFacet (t : TypeObj) : Str → Atom → Prop where
  | pattern {p} : t.pattern = some p → HasFacet t py"pattern" (.str p)
  | minInclusive {a} : t.minInclusive = some a → HasFacet t py"minInclusive" a
  | minExclusive {a} : t.minExclusive = some a → HasFacet t py"minExclusive" a
  | maxExclusive {a} : t.maxExclusive = some a → HasFacet t py"maxExclusive" a
  | maxInclusive {a} : t.maxInclusive = some a → HasFacet t py"maxInclusive" a
  | fractionDigits {a} : t.fractionDigits = some a → HasFacet t py"fractionDigits" a
  | totalDigits {a} : t.totalDigits = some a → HasFacet t py"totalDigits" a

/-- The names XSD defines for its own types. -/
def xsdNames : List Str :=
  [py"anyType", py"anySimpleType", py"string", py"boolean", py"decimal", py"float", py"double", py"duration",
    py"dateTime", py"time", py"date", py"gYearMonth", py"gYear", py"gMonthDay", py"gDay", py"gMonth", py"hexBinary",
    py"base64Binary", py"anyURI", py"QName", py"NOTATION", py"normalizedString", py"token", py"language", py"NMTOKEN",
    py"NMTOKENS", py"Name", py"NCName", py"ID", py"IDREF", py"IDREFS", py"ENTITY", py"ENTITIES", py"integer",
    py"nonPositiveInteger", py"negativeInteger", py"long", py"int", py"short", py"byte", py"nonNegativeInteger",
    py"unsignedLong", py"unsignedInt", py"unsignedShort", py"unsignedByte", py"positiveInteger"]

/-- The occurrences an element declaration in a sequence allows; without an attribute XSD takes one. -/
def AllowsCount (decl : Xml) (n : Nat) : Prop :=
  (∃ m : Int, (decl.plainAttr py"minOccurs" = some (intStr m) ∨ decl.plainAttr py"minOccurs" = none ∧ m = 1) ∧ m ≤ n) ∧
  (decl.plainAttr py"maxOccurs" = some py"unbounded" ∨
    ∃ m : Int, (decl.plainAttr py"maxOccurs" = some (intStr m) ∨ decl.plainAttr py"maxOccurs" = none ∧ m = 1) ∧ (n : Int) ≤ m)

/-- The local name of an element. -/
def Xml.localName : Xml → Option Str
  | .elem q _ _ _ => some q.loc
  | _ => none

/-- The elements follow the declarations of a sequence: for each declaration, in order, a number of elements with its
name that it allows. -/
inductive FollowsSequence : List Xml → List Xml → Prop where
  | nil : FollowsSequence [] []
  | cons {decl decls block rest} : (∀ k ∈ block, k.localName = decl.plainAttr py"name") →
      AllowsCount decl block.length → FollowsSequence decls rest → FollowsSequence (decl :: decls) (block ++ rest)

/-- The generator's view of a field: `_minOccurs` of an Element is 0 or 1 and there is no `_maxOccurs`; a ListElement
has both as given. -/
structure ViewOf (f : Field) (e : GElem) : Prop where
  name : e.name = f.name
  tagname : e.tagname = f.tagname
  nillable : e.nillable = f.nillable
  single : f.kind = .element → e.minOccurs = some (if f.required then 1 else 0) ∧ e.maxOccurs = none
  list : f.kind = .list → e.minOccurs = f.minOccurs ∧ e.maxOccurs = some f.maxOccurs

/-! ### References between the parts of a document -/

/-- `k` is `x` or lies inside it. -/
inductive Within (x : Xml) : Xml → Prop where
  | self : Within x x
  | child {p k} : Within x p → k ∈ p.children → Within x k

/-- A reference to a type resolves: to a type of XSD itself or to a type defined at the top of the document. -/
def Resolves (x : Xml) (r : Str) : Prop :=
  (∃ n ∈ xsdNames, r = py"xsd:" ++ n) ∨
  ∃ n k, r = py"sns:" ++ n ∧ k ∈ x.children ∧ (k.IsXsd py"simpleType" ∨ k.IsXsd py"complexType") ∧
    k.plainAttr py"name" = some n

/-- The type is one of XSD itself or listed in the schema. -/
inductive ListedType (s : GSchema) : TypeCls → Prop where
  | builtin {b} : b ∉ [.int .nonNegativeInteger, .int .nonPositiveInteger, .int .negativeInteger, .int .positiveInteger,
      .nmtoken, .nmtokens, .maxOccurs, .list] → ListedType s (.builtin b)
  | complex {c} : c ∈ s.complexTypes → ListedType s (.complex c.name)
  | simple {st base} : st ∈ s.simpleTypes → base ≠ .simpleType → ListedType s (.derived st.name base)

/-- All types used in the schema are listed. -/
def ClosedSchema (s : GSchema) : Prop :=
  (∀ c ∈ s.complexTypes, ∀ e ∈ c.elements, ListedType s e.type.cls) ∧ (∀ st ∈ s.simpleTypes, ListedType s st.base) ∧
  (∀ t ∈ s.elements, (∀ c, t.type = .ofClass c → ListedType s c) ∧
    ∀ c, t.type = .inst (some c) → ∀ e ∈ c.elements, ListedType s e.type.cls)

end Soapfish
