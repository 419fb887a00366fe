import Verif.RunTypes
import Verif.Spec.Code
import Verif.Spec.Strings
/-
Vocabulary for stating what the types in generated code accept.
-/
namespace Soapfish

open Spec (PatternAccepts)

/-- The text `q` is the local name `l`, with the prefix `p` if there is one. -/
inductive Qualified : Str → Option Str → Str → Prop where
  | plain {l} : ':' ∉ l → Qualified l none l
  | prefixed {p l} : ':' ∉ p → ':' ∉ l → Qualified (p ++ ':' :: l) (some p) l

/-- In the document `d`, the simple type whose class is called `c` is derived from the built-in type `b` by the restrictions
`rs`, the last one first.  `prefixes` stand for the XML Schema namespace. -/
inductive DerivedBy (prefixes : List (Option Str)) (d : DSchema) : Str → Builtin → List DRestriction → Prop where
  | first {st n r q p l b} : st ∈ d.simpleTypes → st.name = some n → st.restriction = some r → r.base = some q →
      Qualified q p l → p ∈ prefixes → capName l = b.clsName → DerivedBy prefixes d (capName n) b [r]
  | again {st n r q p l b rs} : st ∈ d.simpleTypes → st.name = some n → st.restriction = some r → r.base = some q →
      Qualified q p l → p ∉ prefixes → DerivedBy prefixes d (capName l) b rs → DerivedBy prefixes d (capName n) b (r :: rs)

/-- Enumerated values and patterns that mean themselves in the code. -/
def PlainFacets (r : DRestriction) : Prop :=
  (∀ e ∈ r.enumerations, ∃ s, e = some s ∧ PlainText '\'' s) ∧ ∀ p, r.pattern = some p → ∃ s, p = some s ∧ RawText s

/-- The types whose values are texts. -/
def TextBuiltin (b : Builtin) : Prop := b ∈ [.string, .anyURI, .qname, .nmtoken, .nmtokens, .base64Binary, .duration]

/-- The pattern in force: that of the first restriction in the list that has one. -/
def patternOf (rs : List DRestriction) : Option Str := (rs.findSome? fun r => r.pattern).join

/-- The enumeration in force: that of the first restriction in the list that has one. -/
def enumerationOf (rs : List DRestriction) : Option (List (Option Str)) :=
  rs.findSome? fun r => if r.enumerations = [] then none else some r.enumerations

/-- The text matches the pattern in force, unless that is empty, and is one of the values of the enumeration in force. -/
def TextObeys (compile : Str → Pattern) (rs : List DRestriction) (s : Str) : Prop :=
  (∀ p, patternOf rs = some p → p ≠ [] → PatternAccepts (compile p) s) ∧
  (∀ l, enumerationOf rs = some l → some s ∈ l)

/-- Facets of a type in place: texts that mean themselves, and whole numbers. -/
structure InPlaceFacets where
  enumeration : List Str := []
  pattern : Option Str := none
  minInclusive : Option Int := none
  maxInclusive : Option Int := none
  minExclusive : Option Int := none
  maxExclusive : Option Int := none
  fractionDigits : Option Int := none
  totalDigits : Option Int := none
  length : Option Int := none
  minLength : Option Int := none
  maxLength : Option Int := none

/-- A whole number as it is written in a document. -/
def intValue (i : Option Int) : Option (Option Str) := i.map fun n => some (intStr n)

/-- The restriction in the document, with the base `q`. -/
def InPlaceFacets.written (f : InPlaceFacets) (q : Str) : DRestriction where
  base := some q
  enumerations := f.enumeration.map some
  pattern := f.pattern.map some
  minInclusive := intValue f.minInclusive
  maxInclusive := intValue f.maxInclusive
  minExclusive := intValue f.minExclusive
  maxExclusive := intValue f.maxExclusive
  fractionDigits := intValue f.fractionDigits
  totalDigits := intValue f.totalDigits
  length := intValue f.length
  minLength := intValue f.minLength
  maxLength := intValue f.maxLength

/-- The texts mean themselves in the code. -/
def InPlaceFacets.Plain (f : InPlaceFacets) : Prop :=
  (∀ s ∈ f.enumeration, PlainText '\'' s) ∧ ∀ p, f.pattern = some p → RawText p

/-- An element called `n`, which is no keyword, with a type in place that restricts the built-in type `b`. -/
structure HasInPlace (prefixes : List (Option Str)) (e : DElement) (n : Str) (b : Builtin) (f : InPlaceFacets) : Prop where
  name : e.name = some n ∧ n ∉ kwlist
  type : e.type = none
  ref : e.ref = none
  plain : f.Plain
  simpleType : ∃ st q p l, e.simpleType = some st ∧ st.restriction = some (f.written q) ∧ Qualified q p l ∧ p ∈ prefixes ∧
    l ≠ [] ∧ capName l = b.clsName

/-- The types whose values are numbers. -/
def NumberBuiltin (b : Builtin) : Prop := b ∈ [.decimal, .double, .float] ∨ ∃ k, b = .int k

end Soapfish
