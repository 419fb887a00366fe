import Verif.Generate
import Verif.Names
import Verif.Order
/-
The Python code generated from an XSD document (soapfish/templates/lib.jinja2, soapfish/templates/xsd.jinja2,
soapfish/xsd2py.py:122-155), as a list of statements.  Layout and comments are left out.  Text put between quotes is kept
as it stands in the source.

The input is what the templates look at of the objects of soapfish/xsdspec.py.  An attribute that is missing is None.
-/
namespace Soapfish

/-! ### Descriptions, as the templates see them -/

/-- A Restriction (soapfish/xsdspec.py:29-47).  For the facets: `none` if there is no such child, else its value. -/
structure DRestriction where
  base : Option Str
  enumerations : List (Option Str) := []
  pattern : Option (Option Str) := none
  minInclusive : Option (Option Str) := none
  minExclusive : Option (Option Str) := none
  maxExclusive : Option (Option Str) := none
  maxInclusive : Option (Option Str) := none
  fractionDigits : Option (Option Str) := none
  totalDigits : Option (Option Str) := none
  length : Option (Option Str) := none
  minLength : Option (Option Str) := none
  maxLength : Option (Option Str) := none
  whiteSpace : Option (Option Str) := none
  deriving DecidableEq

/-- A SimpleType (soapfish/xsdspec.py:55-59) -/
structure DSimple where
  name : Option Str := none
  restriction : Option DRestriction := none
  list : Bool := false
  deriving DecidableEq

/-- An Element inside a complex type (soapfish/xsdspec.py:62-72).  The templates never look at its `complexType`. -/
structure DElement where
  name : Option Str := none
  type : Option Str := none
  ref : Option Str := none
  minOccurs : Option Int := none
  maxOccurs : Option Bound := none
  nillable : Bool := false
  simpleType : Option DSimple := none
  deriving DecidableEq

/-- An Attribute (soapfish/xsdspec.py:80-86) -/
structure DAttribute where
  name : Option Str := none
  ref : Option Str := none
  type : Option Str := none
  use : Option Str := none
  simpleType : Bool := false
  deriving DecidableEq

/-- The content of a complex type or of an extension or restriction (which have no `choice` or `all`,
soapfish/xsdspec.py:106-129). -/
structure DContent where
  sequence : Option (List DElement) := none
  choice : Option (List DElement) := none
  all : Option (List DElement) := none
  attributes : List DAttribute := []
  attributeGroups : List (Option Str) := []
  deriving DecidableEq

/-- A ComplexContent (soapfish/xsdspec.py:114-118): the base and the content of its restriction and of its extension. -/
structure DDerivation where
  restriction : Option (Option Str × DContent) := none
  extension : Option (Option Str × DContent) := none
  deriving DecidableEq

/-- An XSDComplexType (soapfish/xsdspec.py:121-129) -/
structure DComplex where
  name : Option Str := none
  content : DContent := {}
  complexContent : Option DDerivation := none
  deriving DecidableEq

/-- A top-level Element (soapfish/xsdspec.py:62-72) -/
structure DTop where
  name : Option Str := none
  type : Option Str := none
  ref : Option Str := none
  simpleType : Bool := false
  complexType : Option DComplex := none
  substitutionGroup : Option Str := none
  deriving DecidableEq

/-- A Schema (soapfish/xsdspec.py:147-160).  Imports are given by their namespace, includes by their location; the code
generated for the documents at their locations comes first (`Verif/Includes.lean`). -/
structure DSchema where
  targetNamespace : Option Str
  elementFormDefault : Option Str := some py"unqualified"
  imports : List (Option Str) := []
  includes : List (Option Str) := []
  simpleTypes : List DSimple := []
  attributeGroups : List (Option Str × List DAttribute) := []
  groups : List (Option Str × List DElement) := []
  complexTypes : List DComplex := []
  elements : List DTop := []
  deriving DecidableEq

/-! ### Statements -/

/-- How a type is referred to in the code: `xsd.Name`, `Name`, or the import path `__name__ + '.Name'`. -/
inductive PyRef where
  | xsd (name : Str)
  | name (name : Str)
  | path (name : Str)
  deriving DecidableEq

/-- The text of a reference (soapfish/utils.py:139-144). -/
def PyRef.text : PyRef → Str
  | .xsd n => py"xsd." ++ n
  | .name n => n
  | .path n => py"__name__ + '." ++ n ++ ['\'']

/-- An argument of a type: a list of quoted texts, a raw quoted text, a quoted text or an expression. -/
inductive PyArg where
  | texts (l : List Str)
  | rawText (s : Str)
  | text (s : Str)
  | expr (s : Str)
  deriving DecidableEq

/-- An assignment in a class body. -/
inductive PyField where
  | attribute (name : Str) (type : PyRef) (tagname : Option Str) (use : Str)
  | ref (name : Str) (type : PyRef)
  | element (name : Str) (type : PyRef) (tagname : Option Str) (minOccurs : Option Int) (nillable : Bool)
  | list (name : Str) (type : PyRef) (tagname : Str) (minOccurs : Option Int) (maxOccurs : Bound) (nillable : Bool)
  | inPlace (name : Str) (type : PyRef) (args : List (Str × PyArg))
  deriving DecidableEq

/-- A class statement: base class, and the body: texts for facets, the assignment to `INDICATOR`, fields, and the
parameters of the class method `create`.  `hasBody` is false if nothing is written after the colon. -/
structure PyClassDef where
  name : Str
  base : PyRef
  enumeration : Option (List Str) := none
  facets : List (Str × Str) := []
  indicator : Option Indicator := none
  fields : List PyField := []
  create : Option (List Str) := none
  hasBody : Bool := true
  deriving DecidableEq

/-- One entry of `elements=` of the schema: name, and a reference or the name of a class that is called. -/
structure PyTop where
  name : Str
  type : PyRef ⊕ Str
  substitutionGroup : Option Str := none
  deriving DecidableEq

/-- The statement that creates the schema object. -/
structure PySchema where
  var : Str
  imports : List Str
  includes : List Str
  targetNamespace : Str
  elementFormDefault : Str
  simpleTypes : List Str
  attributeGroups : List Str
  groups : List Str
  complexTypes : List Str
  elements : List PyTop
  deriving DecidableEq

structure PyModule where
  classes : List PyClassDef
  schema : PySchema
  deriving DecidableEq

/-! ### Filters -/

/-- `str(value)` of a text or None -/
def textOf (s : Option Str) : Str := s.getD py"None"

/-- `capitalize` (soapfish/utils.py:86-87); None has no items. -/
def capitalizeO : Option Str → Except Exn Str
  | some s => capitalize s
  | none => .error .typeError

/-- `name in keywords` -/
def isKeyword : Option Str → Bool
  | some s => s ∈ kwlist
  | none => false

/-- `fix_keyword` (soapfish/utils.py:157) -/
def fixKeywordO (s : Option Str) : Str := fixKeyword (textOf s)

/-- A text that is not empty. -/
def nonEmpty : Option Str → Option Str
  | some (c :: cs) => some (c :: cs)
  | _ => none

/-- `remove_namespace` (soapfish/utils.py:40-41) -/
def localPart (s : Option Str) : Option Str := (nonEmpty s).map (lastPart ':')

/-- `x.ref|remove_namespace if x.ref else x.name` -/
def itemName (ref name : Option Str) : Option Str := if (nonEmpty ref).isSome then localPart ref else name

section
variable (prefixes : List (Option Str))

/-- `get_type` (soapfish/utils.py:114-144) as a reference. -/
def pyRef (known : List Str) (x : TypeSource) : Except Exn PyRef := do
  let q ← x.qname
  let (p, n) ← splitQName q
  let name ← capitalize n
  .ok (if p ∈ prefixes then .xsd name else if name ∈ known then .name name else .path name)

/-- The base of an extension or restriction, which may be missing altogether. -/
def baseSource : Option (Option Str) → TypeSource
  | some b => .derived b
  | none => .other

/-! ### Macros -/

/-- `render_xsd_List` (soapfish/templates/lib.jinja2:42-47) -/
def listClass (name : Option Str) : Except Exn PyClassDef := do
  .ok { name := ← capitalizeO name, base := .xsd py"List" }

/-- `minInclusive` or else `minExclusive`, `maxInclusive` or else `maxExclusive`
(soapfish/templates/lib.jinja2:78-87). -/
def boundFacets (r : DRestriction) : List (Str × Str) :=
  (match r.minInclusive, r.minExclusive with
    | some v, _ => [(py"minInclusive", textOf v)]
    | none, some v => [(py"minExclusive", textOf v)]
    | none, none => []) ++
  (match r.maxInclusive, r.maxExclusive with
    | some v, _ => [(py"maxInclusive", textOf v)]
    | none, some v => [(py"maxExclusive", textOf v)]
    | none, none => [])

/-- `render_xsd_Restriction` (soapfish/templates/lib.jinja2:69-95) -/
def restrictionClass (known : List Str) (name : Option Str) (r : DRestriction) : Except Exn PyClassDef := do
  let n ← capitalizeO name
  let base ← pyRef prefixes known (.derived r.base)
  .ok { name := n, base := base
        enumeration := if r.enumerations = [] then none else some (r.enumerations.map textOf)
        facets := r.pattern.toList.map (fun v => (py"pattern", textOf v)) ++ boundFacets r }

/-- An attribute (soapfish/templates/lib.jinja2:51-53, 129-131) -/
def attributeField (known : List Str) (a : DAttribute) : Except Exn PyField := do
  let name := itemName a.ref a.name
  let type ← pyRef prefixes known (.item a.ref a.type a.simpleType)
  let use ← useText ((nonEmpty a.use).getD py"optional")
  .ok (.attribute (fixKeywordO name) type (if isKeyword name then some (textOf name) else none) use)

/-- `render_xsd_AttributeGroup` (soapfish/templates/lib.jinja2:49-56) -/
def attributeGroupClass (known : List Str) (g : Option Str × List DAttribute) : Except Exn PyClassDef := do
  let n ← capitalizeO g.1
  let fields ← mapE (attributeField prefixes known) g.2
  .ok { name := n, base := .xsd py"AttributeGroup", fields := fields, hasBody := !g.2.isEmpty }

/-- An element of a group (soapfish/templates/lib.jinja2:60-63) -/
def groupField (known : List Str) (e : DElement) : Except Exn PyField := do
  let name := itemName e.ref e.name
  let type ← pyRef prefixes known (.item e.ref e.type e.simpleType.isSome)
  .ok (.element (fixKeywordO name) type (if isKeyword name then some (textOf name) else none) none false)

/-- `render_xsd_Group` (soapfish/templates/lib.jinja2:58-66) -/
def groupClass (known : List Str) (g : Option Str × List DElement) : Except Exn PyClassDef := do
  let n ← capitalizeO g.1
  let fields ← mapE (groupField prefixes known) g.2
  .ok { name := n, base := .xsd py"Group", fields := fields, hasBody := !g.2.isEmpty }

/-- `maxOccurs` if it is set and greater than one. -/
def manyOccurs : Option Bound → Option Bound
  | some (.int n) => if 1 < n then some (.int n) else none
  | some .unbounded => some .unbounded
  | none => none

/-- A field for an element with a type (soapfish/templates/lib.jinja2:145-148) -/
def typedField (known : List Str) (e : DElement) : Except Exn (List PyField) :=
  match nonEmpty e.type with
  | none => .ok []
  | some _ => do
    let type ← pyRef prefixes known (.item e.ref e.type e.simpleType.isSome)
    match manyOccurs e.maxOccurs with
    | some m => .ok [.list (fixKeywordO e.name) type (textOf e.name) e.minOccurs m e.nillable]
    | none =>
      .ok [.element (fixKeywordO e.name) type (if isKeyword e.name then some (textOf e.name) else none) e.minOccurs
        e.nillable]

/-- An argument for a facet. -/
def facetArg (name : Str) (mk : Str → PyArg) (v : Option (Option Str)) : List (Str × PyArg) :=
  v.toList.map fun s => (name, mk (textOf s))

/-- The arguments of a type in place (soapfish/templates/lib.jinja2:150-165).  The tag name goes to the type. -/
def inPlaceArgs (name : Option Str) (r : DRestriction) : List (Str × PyArg) :=
  (if r.enumerations = [] then [] else [(py"enumeration", .texts (r.enumerations.map textOf))]) ++
  (if isKeyword name then [(py"tagname", .text (textOf name))] else []) ++
  facetArg py"minInclusive" .expr r.minInclusive ++ facetArg py"maxInclusive" .expr r.maxInclusive ++
  facetArg py"minExclusive" .expr r.minExclusive ++ facetArg py"maxExclusive" .expr r.maxExclusive ++
  facetArg py"fractionDigits" .expr r.fractionDigits ++ facetArg py"totalDigits" .expr r.totalDigits ++
  facetArg py"pattern" .rawText r.pattern ++ facetArg py"length" .expr r.length ++
  facetArg py"minLength" .expr r.minLength ++ facetArg py"maxLength" .expr r.maxLength ++
  facetArg py"whiteSpace" .expr r.whiteSpace

/-- A field for an element with a type in place (soapfish/templates/lib.jinja2:149-166) -/
def inPlaceField (known : List Str) (e : DElement) : Except Exn (List PyField) :=
  match e.simpleType with
  | none => .ok []
  | some st => do
    let type ← pyRef prefixes known (baseSource (st.restriction.map (·.base)))
    .ok [.inPlace (fixKeywordO e.name) type (inPlaceArgs e.name (st.restriction.getD { base := none }))]

/-- A field for a reference to an element (soapfish/templates/lib.jinja2:167-169) -/
def refField (known : List Str) (e : DElement) : Except Exn (List PyField) :=
  match nonEmpty e.ref with
  | none => .ok []
  | some r => do
    let type ← pyRef prefixes known (.item e.ref e.type e.simpleType.isSome)
    .ok [.ref (lastPart ':' r) type]

/-- `render_xsd_element` (soapfish/templates/lib.jinja2:143-170) -/
def elementFields (known : List Str) (e : DElement) : Except Exn (List PyField) := do
  let a ← typedField prefixes known e
  let b ← inPlaceField prefixes known e
  let c ← refField prefixes known e
  .ok (a ++ b ++ c)

/-- A reference to an attribute group (soapfish/templates/lib.jinja2:132-134) -/
def attributeGroupRef (known : List Str) (r : Option Str) : Except Exn PyField := do
  let type ← pyRef prefixes known (match r with | some s => .text s | none => .other)
  .ok (.ref (textOf (localPart r)) type)

/-- The parameters of `create`: elements that occur once (soapfish/templates/lib.jinja2:172-183). -/
def createParams (elements : List DElement) : List Str :=
  (elements.filter fun e => e.minOccurs = some 1 ∨ e.minOccurs = none).map fun e => fixKeywordO (itemName e.ref e.name)

/-- The indicator and the elements (soapfish/templates/lib.jinja2:119-128) -/
def contentElements (c : DContent) : Option Indicator × List DElement :=
  match c.sequence, c.all, c.choice with
  | some l, _, _ => (some .sequence, l)
  | none, some l, _ => (some .all, l)
  | none, none, some l => (some .choice, l)
  | none, none, none => (none, [])

/-- The body of a class for a complex type (soapfish/templates/lib.jinja2:119-141) -/
def complexBody (known : List Str) (name : Str) (base : PyRef) (c : DContent) : Except Exn PyClassDef := do
  let attributes ← mapE (attributeField prefixes known) c.attributes
  let groups ← mapE (attributeGroupRef prefixes known) c.attributeGroups
  let elements ← mapE (elementFields prefixes known) (contentElements c).2
  .ok { name := name, base := base, indicator := (contentElements c).1
        fields := attributes ++ groups ++ elements.flatten
        create := c.sequence.map createParams }

/-- `render_complexType` (soapfish/templates/lib.jinja2:97-141).  A derived class is named after the type, not after the
element it belongs to. -/
def complexClass (known : List Str) (className : Option Str) (ct : DComplex) : Except Exn PyClassDef :=
  match ct.complexContent with
  | none => do
    let n ← capitalizeO className
    complexBody prefixes known n (.xsd py"ComplexType") ct.content
  | some d =>
    match d.restriction with
    | some (base, c) => do
      let n ← capitalizeO ct.name
      let b ← pyRef prefixes known (.derived base)
      complexBody prefixes known n b c
    | none => do
      let n ← capitalizeO ct.name
      let b ← pyRef prefixes known (baseSource (d.extension.map (·.1)))
      complexBody prefixes known n b ((d.extension.map (·.2)).getD {})

/-- The classes for a simple type (soapfish/templates/xsd.jinja2:23-31): one for its restriction, one for its list; the name
is known afterwards even if there is none. -/
def simpleClasses (known : List Str) (st : DSimple) : Except Exn (List PyClassDef × List Str) := do
  let a ← (match st.restriction with
    | some r => do .ok [← restrictionClass prefixes known st.name r]
    | none => .ok [])
  let b ← (if st.list then do .ok [← listClass st.name] else .ok [])
  let n ← capitalizeO st.name
  .ok (a ++ b, known ++ [n])

/-- The class for a complex type (soapfish/templates/xsd.jinja2:41-44). -/
def complexClasses (known : List Str) (ct : DComplex) : Except Exn (List PyClassDef × List Str) := do
  let c ← complexClass prefixes known ct.name ct
  let n ← capitalizeO ct.name
  .ok ([c], known ++ [n])

/-- A loop that collects classes and known types. -/
def collect {α : Type} (f : List Str → α → Except Exn (List PyClassDef × List Str)) :
    List Str → List α → Except Exn (List PyClassDef × List Str)
  | known, [] => .ok ([], known)
  | known, a :: l => do
    let r ← f known a
    let s ← collect f r.2 l
    .ok (r.1 ++ s.1, s.2)

/-- The class for a top-level element with a type of its own (soapfish/templates/xsd.jinja2:46-48). -/
def topClasses (known : List Str) (e : DTop) : Except Exn (List PyClassDef) :=
  match e.complexType with
  | some ct => do .ok [← complexClass prefixes known e.name ct]
  | none => .ok []

/-- `schema_name` (soapfish/utils.py:48-70) of a target namespace, a namespace or a location; None cannot be encoded.
`digest` gives the first five digits of the MD5 sum. -/
def schemaName (digest : Str → Str) : Option Str → Except Exn Str
  | some s => .ok (py"Schema_" ++ digest s)
  | none => .error .attributeError

/-- An entry of `elements=` (soapfish/templates/lib.jinja2:31) -/
def topEntry (known : List Str) (e : DTop) : Except Exn PyTop := do
  let type ← (match nonEmpty e.type with
    | some _ => do .ok (.inl (← pyRef prefixes known (.item e.ref e.type e.simpleType)))
    | none => do .ok (.inr (← capitalizeO e.name)))
  .ok { name := textOf e.name, type := type, substitutionGroup := nonEmpty e.substitutionGroup }

/-- `render_Schema` (soapfish/templates/lib.jinja2:14-40) for a document without a location -/
def schemaStatement (digest : Str → Str) (known : List Str) (d : DSchema) : Except Exn PySchema := do
  let var ← schemaName digest d.targetNamespace
  let imports ← mapE (schemaName digest) d.imports
  let includes ← mapE (schemaName digest) d.includes
  let simpleTypes ← mapE (fun st : DSimple => capitalizeO st.name) d.simpleTypes
  let attributeGroups ← mapE (fun g : Option Str × List DAttribute => capitalizeO g.1) d.attributeGroups
  let groups ← mapE (fun g : Option Str × List DElement => capitalizeO g.1) d.groups
  let complexTypes ← mapE (fun ct : DComplex => capitalizeO ct.name) d.complexTypes
  let elements ← mapE (topEntry prefixes known) d.elements
  .ok { var := var, imports := imports, includes := includes, targetNamespace := textOf d.targetNamespace
        elementFormDefault := textOf d.elementFormDefault, simpleTypes := simpleTypes
        attributeGroups := attributeGroups, groups := groups, complexTypes := complexTypes, elements := elements }

/-- The template (soapfish/templates/xsd.jinja2:19-49) for complex types in the order given. -/
def schemaCode (digest : Str → Str) (known : List Str) (d : DSchema) : Except Exn (PyModule × List Str) := do
  let simple ← collect (simpleClasses prefixes) known d.simpleTypes
  let attributeGroups ← mapE (attributeGroupClass prefixes simple.2) d.attributeGroups
  let groups ← mapE (groupClass prefixes simple.2) d.groups
  let complex ← collect (complexClasses prefixes) simple.2 d.complexTypes
  let tops ← mapE (topClasses prefixes complex.2) d.elements
  let schema ← schemaStatement prefixes digest complex.2 d
  .ok ({ classes := simple.1 ++ attributeGroups ++ groups ++ complex.1 ++ tops.flatten, schema := schema }, complex.2)

end

/-- `_reorder_complexTypes` (soapfish/xsd2py.py:81-119) on descriptions. -/
def DComplex.decl (i : Nat) (ct : DComplex) : TypeDecl where
  name := textOf ct.name
  content := match ct.complexContent with
    | none => .none
    | some d => match d.extension, d.restriction with
      | some e, _ => .extension (e.1.getD [])
      | none, some r => .restriction (r.1.getD [])
      | none, none => .neither
  doc := i

/-- The complex types in the order of `_reorder_complexTypes`; the positions tell which is which. -/
def reorderComplex (n : Nat) (l : List DComplex) : Except Exn (List DComplex) := do
  let ds ← reorderTypes n (l.zipIdx.map fun p => p.1.decl p.2)
  .ok (ds.filterMap fun t => l[t.doc]?)

/-- `schema_to_py` (soapfish/xsd2py.py:122-155): types are put in order, a missing target namespace is the parent's. -/
def schemaToPy (prefixes : List (Option Str)) (digest : Str → Str) (n : Nat) (parent : Option Str) (d : DSchema) :
    Except Exn PyModule := do
  let cts ← reorderComplex n d.complexTypes
  let r ← schemaCode prefixes digest [] { d with complexTypes := cts, targetNamespace := d.targetNamespace.or parent }
  .ok r.1

end Soapfish
