import Verif.Run
/-
What the types of generated fields accept.  `compile` gives the meaning of a pattern text; it is the regular expression
engine of Python, which is not modelled (`Verif/Regex.lean`).
-/
namespace Soapfish

/-- A facet that must be a whole number to be compared; `none` on the outside: it is something else. -/
def intFacet? : Option Atom → Option (Option Int)
  | none => some none
  | some (.int n) => some (some n)
  | some _ => none

/-- An enumeration of texts. -/
def textList? : List Atom → Option (List Str)
  | [] => some []
  | .str s :: l => (textList? l).map (s :: ·)
  | _ :: _ => none

/-- The attributes `String.accept` looks at (soapfish/xsd.py:145-175); an empty pattern counts as none.  `whiteSpace` is
never set: the templates write it without quotes. -/
def TypeObj.strFacets (compile : Str → Pattern) (t : TypeObj) : Option StrFacets := do
  let enumeration ← textList? (t.enumeration.getD [])
  let length ← intFacet? t.length
  let minLength ← intFacet? t.minLength
  let maxLength ← intFacet? t.maxLength
  some { enumeration := enumeration, pattern := (nonEmpty t.pattern).map compile, length := length
         minLength := minLength, maxLength := maxLength }

/-- The attributes `_check_restrictions` looks at (soapfish/xsd.py:357-395). -/
def TypeObj.numFacets (compile : Str → Pattern) (t : TypeObj) : Option NumFacets := do
  let fractionDigits ← intFacet? t.fractionDigits
  let totalDigits ← intFacet? t.totalDigits
  some { enumeration := t.enumeration, fractionDigits := fractionDigits, maxExclusive := t.maxExclusive
         maxInclusive := t.maxInclusive, minExclusive := t.minExclusive, minInclusive := t.minInclusive
         pattern := t.pattern.map compile, totalDigits := totalDigits }

/-- The behaviour of a type object: that of the class of soapfish.xsd it derives from, with the facets of the object.
Integer types always have the pattern of `Integer` (soapfish/xsd.py:441-448), whose meaning is known.  `xsd.List` and
`xsd.AnyType` do not accept anything (soapfish/xsd.py:93-95, 1053-1090). -/
def TypeObj.stype (compile : Str → Pattern) (iso : Iso) (t : TypeObj) : Option SType :=
  match t.cls.root with
  | some .boolean => some .boolean
  | some .date => some .date
  | some .dateTime => some (.datetime iso)
  | some .time => some (.time iso)
  | some .maxOccurs => some .maxOccurs
  | some .decimal | some .double | some .float => (t.numFacets compile).map .decimal
  | some (.int _) => (t.numFacets compile).map fun f => .integer (f.update { base := true })
  | some .string | some .anyURI | some .qname | some .nmtoken | some .nmtokens | some .base64Binary | some .duration =>
    (t.strFacets compile).map .string
  | some .list | some .anyType | none => none

/-- `accept` of the type of a descriptor in the module `env` (soapfish/xsd.py:572-592); `none` if it is not known. -/
def TypeUse.accept (env : PyEnv) (compile : Str → Pattern) (iso : Iso) (u : TypeUse) (v : Atom) : Option (Except Exn Atom) :=
  match u.obj env with
  | .ok t => (t.stype compile iso).map fun s => s.accept v
  | .error _ => none

end Soapfish
