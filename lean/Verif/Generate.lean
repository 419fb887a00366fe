import Verif.Xsdspec
/-
XSD generation from schema objects (soapfish/py2xsd.py:14-211).

The input is described by what the generator looks at.  The generator fills instances of the classes of
soapfish/xsdspec.py and renders them; both steps use the model of complex types (`Verif/Complex.lean`).  Nested objects
are filled before they are put into their parent (the code puts them there first and fills them afterwards); the result
is the same because assignment keeps the object.
-/
namespace Soapfish

/-! ### Types as the generator sees them -/

/-- The classes of soapfish.xsd that can be types of fields. -/
inductive Builtin where
  | string | boolean | date | dateTime | time | decimal | double | float | int (k : IntKind)
  | maxOccurs | list | anyURI | qname | nmtoken | nmtokens | base64Binary | duration | anyType
  deriving DecidableEq, Repr

/-- `__name__` of an integer class (soapfish/xsd.py:440-509) -/
def IntKind.clsName : IntKind → Str
  | .integer => py"Integer"
  | .nonNegativeInteger => py"NonNegativeInteger"
  | .nonPositiveInteger => py"NonPositiveInteger"
  | .negativeInteger => py"NegativeInteger"
  | .positiveInteger => py"PositiveInteger"
  | .long => py"Long"
  | .int => py"Int"
  | .short => py"Short"
  | .byte => py"Byte"
  | .unsignedLong => py"UnsignedLong"
  | .unsignedInt => py"UnsignedInt"
  | .unsignedShort => py"UnsignedShort"
  | .unsignedByte => py"UnsignedByte"

/-- `__name__` (soapfish/xsd.py:120-525, 1053-1090) -/
def Builtin.clsName : Builtin → Str
  | .string => py"String"
  | .boolean => py"Boolean"
  | .date => py"Date"
  | .dateTime => py"DateTime"
  | .time => py"Time"
  | .decimal => py"Decimal"
  | .double => py"Double"
  | .float => py"Float"
  | .int k => k.clsName
  | .maxOccurs => py"MaxOccurs"
  | .list => py"List"
  | .anyURI => py"AnyURI"
  | .qname => py"QName"
  | .nmtoken => py"NMTOKEN"
  | .nmtokens => py"NMTOKENS"
  | .base64Binary => py"Base64Binary"
  | .duration => py"Duration"
  | .anyType => py"AnyType"

/-- `__bases__[0] == xsd.SimpleType` (soapfish/xsd.py:120, 197, 225, 283, 308, 343, 512, 1053); the others derive from
String, Decimal or an integer class, `AnyType` from `Type`. -/
def Builtin.baseIsSimple : Builtin → Bool
  | .string | .boolean | .date | .dateTime | .time | .decimal | .maxOccurs | .list => true
  | _ => false

/-- Membership in `ALL_TYPES` (soapfish/py2xsd.py:14-21) -/
def Builtin.inAll : Builtin → Bool
  | .decimal | .double | .float => true
  | .int .integer | .int .int | .int .long | .int .short | .int .unsignedByte | .int .unsignedInt
  | .int .unsignedLong | .int .unsignedShort | .int .byte => true
  | .qname | .anyURI | .base64Binary | .anyType | .duration => true
  | _ => false

/-- A type class: built in, a user class with its first base class, `xsd.SimpleType` itself, or a complex type. -/
inductive TypeCls where
  | builtin (b : Builtin)
  | derived (name : Str) (base : TypeCls)
  | simpleType
  | complex (name : Str)
  deriving DecidableEq, Repr

/-- `cls.__name__` -/
def TypeCls.clsName : TypeCls → Str
  | .builtin b => b.clsName
  | .derived n _ => n
  | .simpleType => py"SimpleType"
  | .complex n => n

/-- `cls.__bases__[0] == xsd.SimpleType` -/
def TypeCls.baseIsSimple : TypeCls → Bool
  | .builtin b => b.baseIsSimple
  | .derived _ b => b = .simpleType
  | _ => false

/-- `cls in ALL_TYPES` -/
def TypeCls.inAll : TypeCls → Bool
  | .builtin b => b.inAll
  | _ => false

/-- A type object: its class and its facets; a facet the object does not have or that is None is `none`.  The generator
does not look at the lengths. -/
structure TypeObj where
  cls : TypeCls
  enumeration : Option (List Atom) := none
  fractionDigits : Option Atom := none
  pattern : Option Str := none
  minInclusive : Option Atom := none
  minExclusive : Option Atom := none
  maxExclusive : Option Atom := none
  maxInclusive : Option Atom := none
  totalDigits : Option Atom := none
  length : Option Atom := none
  minLength : Option Atom := none
  maxLength : Option Atom := none

/-- `get_xsd_type` (soapfish/py2xsd.py:28-34) -/
def xsdType (t : TypeCls) : Except Exn Str := do
  let n ← uncapitalize t.clsName
  .ok (if t.baseIsSimple || t.inAll then py"xsd:" ++ n else py"sns:" ++ n)

/-- `bool(value)` -/
def Atom.truthy : Atom → Bool
  | .none => false
  | .bool b => b
  | .int i => i ≠ 0
  | .float (.fin d) => d.coeff ≠ 0
  | .decimal d => d.coeff ≠ 0
  | .str s => !s.isEmpty
  | _ => true

/-! ### Schema objects as the generator sees them -/

/-- An Attribute descriptor (soapfish/xsd.py:654-668). -/
structure GAttr where
  name : Str
  use : Str
  type : TypeObj

/-- An Element, ClassNamedElement or ListElement descriptor.  `maxOccurs` is `none` if there is no attribute
`_maxOccurs`; `passedClass` says `inspect.isclass(element._passed_type)` (an import path has been replaced by the class
when the type was evaluated, soapfish/xsd.py:574-575). -/
structure GElem where
  name : Str
  tagname : Option Str := none
  nillable : Bool := false
  minOccurs : Option Int := some 1
  maxOccurs : Option (Option Bound) := none
  passedClass : Bool := true
  type : TypeObj

inductive Indicator where
  | sequence | choice | all
  deriving DecidableEq, Repr

/-- `INDICATOR.__name__.lower()` (soapfish/xsd.py:75-95) -/
def Indicator.attr : Indicator → Str
  | .sequence => py"sequence"
  | .choice => py"choice"
  | .all => py"all"

/-- A ComplexType class: `_meta.attributes`, `_meta.fields` and `INDICATOR` (which may be None). -/
structure GComplex where
  name : Str
  attributes : List GAttr := []
  elements : List GElem := []
  indicator : Option Indicator := some .sequence

/-- A simple type class with its class-level facets; `base` is `st.__bases__[0]`. -/
structure GSimple where
  name : Str
  base : TypeCls
  enumeration : Option (List Atom) := none
  fractionDigits : Option Atom := none
  pattern : Option Str := none

/-- A top-level element: the class of its type if a class or a name was passed, or an instance of a class (`inst none`:
of a simple type class). -/
inductive GType where
  | ofClass (t : TypeCls)
  | inst (c : Option GComplex)

structure GTop where
  name : Str
  substitutionGroup : Option Str := none
  type : GType

/-- A Schema object (soapfish/xsd.py:1093-1150); `imports` are target namespace and location. -/
structure GSchema where
  targetNamespace : Str
  qualified : Bool := false
  imports : List (Str × Option Str) := []
  includes : List (Option Str) := []
  simpleTypes : List GSimple := []
  complexTypes : List GComplex := []
  elements : List GTop := []

/-! ### The generator -/

section
variable (v : Version) (D : Nat)

/-- Constructing and filling an object of soapfish/xsdspec.py or soapfish/wsdl11.py: the constructor call followed by
assignments. -/
def mkSpec (c : ClsId) (kwargs : List (Str × Val)) : Except Exn Val := construct (specTable v) D c kwargs

/-- `obj.name = value` -/
def setSpec (obj : Val) (name : Str) (w : Val) : Except Exn Val := setAttr (specTable v) (newInst (specTable v) D) obj name w

/-- `obj.name.append(value)` -/
def appendSpec (name : Str) (obj : Val) (w : Val) : Except Exn Val :=
  match obj with
  | .inst c _ _ =>
    match findField (specTable v c).fields name with
    | .ok f => appendAttr (specTable v) (newInst (specTable v) D) f obj w
    | .error _ => .error .attributeError
  | _ => .error .attributeError

def strV (s : Str) : Val := .atom (.str s)

/-- `xsd_attribute` (soapfish/py2xsd.py:37-42) -/
def xsdAttribute (a : GAttr) : Except Exn Val := do
  let t ← xsdType a.type.cls
  mkSpec v D xAttribute [(py"name", strV a.name), (py"use", strV a.use), (py"type", strV t)]

/-- `xsdspec.Enumeration.create(value)` (soapfish/xsdspec.py:9-13) -/
def enumCreate (a : Atom) : Except Exn Val := mkSpec v D xEnumeration [(py"value", .atom a)]

/-- Appending the enumeration values (soapfish/py2xsd.py:62-65, 129-131). -/
def addEnums (restriction : Val) (values : List Atom) : Except Exn Val :=
  foldE (fun r a => do appendSpec v D py"enumerations" r (← enumCreate v D a)) restriction values

/-- One facet of an in-place restriction, written if it is not falsy (soapfish/py2xsd.py:67-86). -/
def addFacet (name : Str) (c : ClsId) (value : Option Atom) (restriction : Val) : Except Exn Val :=
  match value with
  | none => .ok restriction
  | some a =>
    if a.truthy then do
      let w ← mkSpec v D c [(py"value", strV a.toStr)]
      setSpec v D restriction name w
    else .ok restriction

/-- The in-place simple type of an element (soapfish/py2xsd.py:57-86). -/
def inPlaceType (t : TypeObj) : Except Exn Val := do
  let base ← xsdType t.cls
  let r ← mkSpec v D xRestriction [(py"base", strV base)]
  let r ← (if t.cls.baseIsSimple then addEnums v D r (t.enumeration.getD []) else .ok r)
  let r ← addFacet v D py"fractionDigits" xRestrictionValue t.fractionDigits r
  let r ← addFacet v D py"pattern" xPattern (t.pattern.map .str) r
  let r ← addFacet v D py"minInclusive" xRestrictionValue t.minInclusive r
  let r ← addFacet v D py"minExclusive" xRestrictionValue t.minExclusive r
  let r ← addFacet v D py"maxExclusive" xRestrictionValue t.maxExclusive r
  let r ← addFacet v D py"maxInclusive" xRestrictionValue t.maxInclusive r
  let r ← addFacet v D py"totalDigits" xRestrictionValue t.totalDigits r
  mkSpec v D xSimpleType [(py"restriction", r)]

/-- `element.tagname if element.tagname else element._name` (soapfish/py2xsd.py:47) -/
def GElem.tag (e : GElem) : Str :=
  match e.tagname with
  | some (c :: cs) => c :: cs
  | _ => e.name

def optInt : Option Int → Val
  | some n => .atom (.int n)
  | none => Val.none

def optBound : Option Bound → Val
  | some (.int n) => .atom (.int n)
  | some .unbounded => .atom .unbounded
  | none => Val.none

/-- `maxOccurs`, set only if the descriptor has it (soapfish/py2xsd.py:50-51). -/
def maxArg : Option (Option Bound) → List (Str × Val)
  | some b => [(py"maxOccurs", optBound b)]
  | none => []

/-- `create_xsd_element` (soapfish/py2xsd.py:45-89) -/
def createElement (e : GElem) : Except Exn Val := do
  let x ← mkSpec v D xElement ([(py"name", strV e.tag), (py"nillable", .atom (.bool e.nillable)),
    (py"minOccurs", optInt e.minOccurs)] ++ maxArg e.maxOccurs)
  if e.passedClass then do
    let t ← xsdType e.type.cls
    setSpec v D x py"type" (strV t)
  else do
    let st ← inPlaceType v D e.type
    setSpec v D x py"simpleType" st

/-- Putting the elements into a container (soapfish/py2xsd.py:104-120).  Without an indicator the container is the
complex type description itself, which has no `elements`. -/
def addElements (indicator : Option Indicator) (ct : Val) (elements : List GElem) : Except Exn Val :=
  match indicator with
  | some i => do
    let s ← mkSpec v D xSequence []
    let s ← foldE (fun s e => do appendSpec v D py"elements" s (← createElement v D e)) s elements
    setSpec v D ct i.attr s
  | none =>
    foldE (fun _ e => do
      let _ ← createElement v D e
      .error .attributeError) ct elements

/-- `xsd_complexType` (soapfish/py2xsd.py:92-121) -/
def xsdComplexType (c : GComplex) (named : Bool) : Except Exn Val := do
  let kwargs ← (if named then do .ok [(py"name", strV (← uncapitalize c.name))] else .ok [])
  let ct ← mkSpec v D xComplexType kwargs
  let ct ← foldE (fun ct a => do appendSpec v D py"attributes" ct (← xsdAttribute v D a)) ct c.attributes
  addElements v D c.indicator ct c.elements

/-- `fractionDigits`, which is passed as it is, or else the pattern (soapfish/py2xsd.py:132-135). -/
def simpleFacet (st : GSimple) (r : Val) : Except Exn Val :=
  match st.fractionDigits with
  | some a =>
    if a.truthy then do setSpec v D r py"fractionDigits" (← mkSpec v D xRestrictionValue [(py"value", .atom a)])
    else addFacet v D py"pattern" xPattern (st.pattern.map .str) r
  | none => addFacet v D py"pattern" xPattern (st.pattern.map .str) r

/-- `xsd_simpleType` (soapfish/py2xsd.py:124-137) -/
def xsdSimpleType (st : GSimple) : Except Exn Val := do
  let name ← uncapitalize st.name
  let base ← xsdType st.base
  let r ← mkSpec v D xRestriction [(py"base", strV base)]
  let r ← addEnums v D r (st.enumeration.getD [])
  let r ← simpleFacet v D st r
  mkSpec v D xSimpleType [(py"name", strV name), (py"restriction", r)]

/-- A location that is set and not empty (soapfish/py2xsd.py:145-146, 154-155). -/
def locationArg : Option Str → List (Str × Val)
  | some (c :: cs) => [(py"schemaLocation", strV (c :: cs))]
  | _ => []

/-- `build_imports` (soapfish/py2xsd.py:140-148) -/
def buildImports (schema : Val) (imports : List (Str × Option Str)) : Except Exn Val :=
  foldE (fun s i => do
    appendSpec v D py"imports" s (← mkSpec v D xImport ((py"namespace", strV i.1) :: locationArg i.2))) schema imports

/-- `build_includes` (soapfish/py2xsd.py:151-156) -/
def buildIncludes (schema : Val) (includes : List (Option Str)) : Except Exn Val :=
  foldE (fun s i => do appendSpec v D py"includes" s (← mkSpec v D xInclude (locationArg i))) schema includes

/-- `value if value.startswith('sns:') else f'sns:{value}'` (soapfish/py2xsd.py:184-186) -/
def groupArg : Option Str → List (Str × Val)
  | none => []
  | some g => [(py"substitutionGroup", strV (if startsWith py"sns:" g then g else py"sns:" ++ g))]

/-- The type of a top-level element (soapfish/py2xsd.py:188-191); a simple type class has no `_meta`. -/
def topType (t : GType) (x : Val) : Except Exn Val :=
  match t with
  | .ofClass c => do setSpec v D x py"type" (strV (← xsdType c))
  | .inst (some c) => do setSpec v D x py"complexType" (← xsdComplexType v D c false)
  | .inst none => .error .attributeError

/-- `generate_elements` (soapfish/py2xsd.py:178-193) -/
def generateElements (schema : Val) (elements : List GTop) : Except Exn Val :=
  foldE (fun s e => do
    let x ← mkSpec v D xElement ((py"name", strV e.name) :: groupArg e.substitutionGroup)
    let x ← topType v D e.type x
    appendSpec v D py"elements" s x) schema elements

/-- `schema.elementFormDefault` -/
def formText (qualified : Bool) : Str := if qualified then py"qualified" else py"unqualified"

/-- `generate_xsdspec` (soapfish/py2xsd.py:159-175) -/
def generateXsdspec (s : GSchema) : Except Exn Val := do
  let x ← mkSpec v D xSchema [(py"targetNamespace", strV s.targetNamespace),
    (py"elementFormDefault", strV (formText s.qualified))]
  let x ← buildImports v D x s.imports
  let x ← buildIncludes v D x s.includes
  let x ← foldE (fun x st => do appendSpec v D py"simpleTypes" x (← xsdSimpleType v D st)) x s.simpleTypes
  let x ← foldE (fun x ct => do appendSpec v D py"complexTypes" x (← xsdComplexType v D ct true)) x s.complexTypes
  generateElements v D x s.elements

/-- `generate_xsd` (soapfish/py2xsd.py:196-211); the namespace prefixes declared on the root element (`sns`: the target
namespace, `xsd`) are not part of the document model. -/
def generateSchema (s : GSchema) : Except Exn Xml := do
  let x ← generateXsdspec v D s
  toXml (specTable v) D x py"schema" (some nsXsd) true

end

end Soapfish
