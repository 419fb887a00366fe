import Verif.Spec.Strings
import Mathlib.Algebra.Order.Field.Power
import Mathlib.Algebra.Order.Ring.Rat
/-!
Independent specification for Decimal: the rational number a value denotes, and the facets in terms of it.
-/
namespace Soapfish.Spec

/-- The rational number denoted by a finite decimal. -/
def decVal (d : Dec) : ℚ := (if d.neg then -1 else 1) * (d.coeff : ℚ) * (10 : ℚ) ^ d.exp

/-- The rational number denoted by a Python number, if finite. -/
def numVal : Atom → Option ℚ
  | .bool b => some (if b then 1 else 0)
  | .int i => some (i : ℚ)
  | .float (.fin d) => some (decVal d)
  | .decimal d => some (decVal d)
  | _ => none

/-- A facet bound, if given, denotes a number related to `x`. -/
def Bound (R : ℚ → ℚ → Prop) (x : ℚ) : Option Atom → Prop
  | none => True
  | some b => ∃ y, numVal b = some y ∧ R x y

/-- Every number occurring in the facets is finite. -/
structure FiniteFacets (f : NumFacets) : Prop where
  maxExclusive : ∀ b, f.maxExclusive = some b → ∃ y, numVal b = some y
  maxInclusive : ∀ b, f.maxInclusive = some b → ∃ y, numVal b = some y
  minExclusive : ∀ b, f.minExclusive = some b → ∃ y, numVal b = some y
  minInclusive : ∀ b, f.minInclusive = some b → ∃ y, numVal b = some y
  enumeration : ∀ l, f.enumeration = some l → ∀ b ∈ l, ∃ y, numVal b = some y

/-- Digits after the point: none at all for 0; otherwise exactly `n` characters between the first point and the next
point or the end. -/
def FractionOk (s : Str) : Option Int → Prop
  | none => True
  | some n => if n = 0 then '.' ∉ s else
      ∃ a b r, s = a ++ '.' :: (b ++ r) ∧ '.' ∉ a ∧ '.' ∉ b ∧ (r = [] ∨ r.head? = some '.') ∧ (b.length : Int) = n

/-- Characters other than the (first) point. -/
def TotalOk (s : Str) : Option Int → Prop
  | none => True
  | some n => (s.length : Int) ≤ n + (if '.' ∈ s then 1 else 0)

/-- The number `x` with text `s` satisfies all facets. -/
structure NumOk (f : NumFacets) (x : ℚ) (s : Str) : Prop where
  enumeration : ∀ l, f.enumeration = some l → ∃ b ∈ l, numVal b = some x
  fraction : FractionOk s f.fractionDigits
  maxExclusive : Bound (· < ·) x f.maxExclusive
  maxInclusive : Bound (· ≤ ·) x f.maxInclusive
  minExclusive : Bound (· > ·) x f.minExclusive
  minInclusive : Bound (· ≥ ·) x f.minInclusive
  pattern : ∀ p, f.pattern = some p → PatternAccepts p s
  total : TotalOk s f.totalDigits

end Soapfish.Spec
