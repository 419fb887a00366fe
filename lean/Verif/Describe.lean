import Verif.Code
/-
Reading the objects of soapfish/xsdspec.py the way the templates do: attribute by attribute (soapfish/templates/lib.jinja2,
soapfish/templates/xsd.jinja2).
-/
namespace Soapfish

/-- `object.name` in a template -/
def readAttr (v : Val) (n : Str) : Option Val :=
  match v with
  | .inst _ fs _ => Dict.get? fs n
  | _ => Option.none

/-- A text; None if it is missing. -/
def readStr (v : Val) (n : Str) : Option Str :=
  match readAttr v n with
  | some (.atom (.str s)) => some s
  | _ => Option.none

def readInt (v : Val) (n : Str) : Option Int :=
  match readAttr v n with
  | some (.atom (.int i)) => some i
  | _ => Option.none

def readBound (v : Val) (n : Str) : Option Bound :=
  match readAttr v n with
  | some (.atom (.int i)) => some (.int i)
  | some (.atom .unbounded) => some .unbounded
  | _ => Option.none

def readBool (v : Val) (n : Str) : Bool :=
  match readAttr v n with
  | some (.atom (.bool b)) => b
  | _ => false

/-- A nested object; None if it is missing. -/
def readChild (v : Val) (n : Str) : Option Val :=
  match readAttr v n with
  | some (.inst c fs x) => some (.inst c fs x)
  | _ => Option.none

def readList (v : Val) (n : Str) : List Val :=
  match readAttr v n with
  | some (.list _ l) => l
  | _ => []

/-- The value of a facet object. -/
def readFacet (v : Val) (n : Str) : Option (Option Str) := (readChild v n).map (readStr · py"value")

def readRestriction (v : Val) : DRestriction where
  base := readStr v py"base"
  enumerations := (readList v py"enumerations").map (readStr · py"value")
  pattern := readFacet v py"pattern"
  minInclusive := readFacet v py"minInclusive"
  minExclusive := readFacet v py"minExclusive"
  maxExclusive := readFacet v py"maxExclusive"
  maxInclusive := readFacet v py"maxInclusive"
  fractionDigits := readFacet v py"fractionDigits"
  totalDigits := readFacet v py"totalDigits"
  length := readFacet v py"length"
  minLength := readFacet v py"minLength"
  maxLength := readFacet v py"maxLength"
  whiteSpace := readFacet v py"whiteSpace"

def readSimple (v : Val) : DSimple where
  name := readStr v py"name"
  restriction := (readChild v py"restriction").map readRestriction
  list := (readChild v py"list").isSome

def readElement (v : Val) : DElement where
  name := readStr v py"name"
  type := readStr v py"type"
  ref := readStr v py"ref"
  minOccurs := readInt v py"minOccurs"
  maxOccurs := readBound v py"maxOccurs"
  nillable := readBool v py"nillable"
  simpleType := (readChild v py"simpleType").map readSimple

def readAttribute (v : Val) : DAttribute where
  name := readStr v py"name"
  ref := readStr v py"ref"
  type := readStr v py"type"
  use := readStr v py"use"
  simpleType := (readChild v py"simpleType").isSome

def readElements (v : Val) : List DElement := (readList v py"elements").map readElement

def readContent (v : Val) : DContent where
  sequence := (readChild v py"sequence").map readElements
  choice := (readChild v py"choice").map readElements
  all := (readChild v py"all").map readElements
  attributes := (readList v py"attributes").map readAttribute
  attributeGroups := (readList v py"attributeGroups").map (readStr · py"ref")

def readDerivation (v : Val) : DDerivation where
  restriction := (readChild v py"restriction").map fun w => (readStr w py"base", readContent w)
  extension := (readChild v py"extension").map fun w => (readStr w py"base", readContent w)

def readComplex (v : Val) : DComplex where
  name := readStr v py"name"
  content := readContent v
  complexContent := (readChild v py"complexContent").map readDerivation

def readTop (v : Val) : DTop where
  name := readStr v py"name"
  type := readStr v py"type"
  ref := readStr v py"ref"
  simpleType := (readChild v py"simpleType").isSome
  complexType := (readChild v py"complexType").map readComplex
  substitutionGroup := readStr v py"substitutionGroup"

def readSchema (v : Val) : DSchema where
  targetNamespace := readStr v py"targetNamespace"
  elementFormDefault := readStr v py"elementFormDefault"
  imports := (readList v py"imports").map (readStr · py"namespace")
  includes := (readList v py"includes").map (readStr · py"schemaLocation")
  simpleTypes := (readList v py"simpleTypes").map readSimple
  attributeGroups := (readList v py"attributeGroups").map fun g =>
    (readStr g py"name", (readList g py"attributes").map readAttribute)
  groups := (readList v py"groups").map fun g =>
    (readStr g py"name", ((readChild g py"sequence").map readElements).getD [])
  complexTypes := (readList v py"complexTypes").map readComplex
  elements := (readList v py"elements").map readTop

end Soapfish
