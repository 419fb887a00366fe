import Verif.Simple
/-!
Independent specification for the integer properties: value ranges of the XML Schema integer types and the grammar
of Python integer literals.
-/
namespace Soapfish.Spec

/-- Lower bound of each XML Schema integer type (XSD part 2, section 3.3), `none` = unbounded. -/
def minOf : IntKind → Option Int
  | .integer | .nonPositiveInteger | .negativeInteger => none
  | .nonNegativeInteger | .unsignedLong | .unsignedInt | .unsignedShort | .unsignedByte => some 0
  | .positiveInteger => some 1
  | .long => some (-2 ^ 63)
  | .int => some (-2 ^ 31)
  | .short => some (-2 ^ 15)
  | .byte => some (-2 ^ 7)

/-- Upper bound of each XML Schema integer type. -/
def maxOf : IntKind → Option Int
  | .integer | .nonNegativeInteger | .positiveInteger => none
  | .nonPositiveInteger => some 0
  | .negativeInteger => some (-1)
  | .long => some (2 ^ 63 - 1)
  | .int => some (2 ^ 31 - 1)
  | .short => some (2 ^ 15 - 1)
  | .byte => some (2 ^ 7 - 1)
  | .unsignedLong => some (2 ^ 64 - 1)
  | .unsignedInt => some (2 ^ 32 - 1)
  | .unsignedShort => some (2 ^ 16 - 1)
  | .unsignedByte => some (2 ^ 8 - 1)

/-- `v` respects an optional lower/upper bound. -/
def AtLeast (v : Int) : Option Int → Prop
  | none => True
  | some b => b ≤ v
def AtMost (v : Int) : Option Int → Prop
  | none => True
  | some b => v ≤ b
def Above (v : Int) : Option Int → Prop
  | none => True
  | some b => b < v
def Below (v : Int) : Option Int → Prop
  | none => True
  | some b => v < b

/-- The value range of an integer type. -/
def InRange (k : IntKind) (v : Int) : Prop := AtLeast v (minOf k) ∧ AtMost v (maxOf k)

/-- Membership in an optional enumeration. -/
def InEnum (v : Int) : Option (List Int) → Prop
  | none => True
  | some l => v ∈ l

/-- `totalDigits`: the number of characters of the canonical decimal text (a minus sign counts) is at most `n`,
expressed by magnitude: with `d` characters left for digits there must be at least one and `|v| < 10^d`. -/
def FitsDigits (v : Int) : Option Int → Prop
  | none => True
  | some n => ∃ d : Nat, (d : Int) + (if v < 0 then 1 else 0) ≤ n ∧ 1 ≤ d ∧ v.natAbs < 10 ^ d

/-- Facets a user can pass to the constructor of an integer type. -/
structure IntArgs where
  enumeration : Option (List Int) := none
  maxExclusive : Option Int := none
  maxInclusive : Option Int := none
  minExclusive : Option Int := none
  minInclusive : Option Int := none
  totalDigits : Option Int := none
  /-- also accepted by the constructor, but always replaced -/
  fractionDigits : Option Int := none
  pattern : Option Pattern := none

/-- The constructor call, in the vocabulary of the model. -/
def IntArgs.facets (a : IntArgs) : NumFacets where
  enumeration := a.enumeration.map (·.map .int)
  fractionDigits := a.fractionDigits
  maxExclusive := a.maxExclusive.map .int
  maxInclusive := a.maxInclusive.map .int
  minExclusive := a.minExclusive.map .int
  minInclusive := a.minInclusive.map .int
  pattern := a.pattern
  totalDigits := a.totalDigits

/-- A fixed bound of the type wins over the constructor argument. -/
def fixedOr : Option Int → Option Int → Option Int
  | some b, _ => some b
  | none, a => a

/-- All facets in force for type `k` constructed with arguments `a` hold of `v`. -/
def Satisfies (k : IntKind) (a : IntArgs) (v : Int) : Prop :=
  InEnum v a.enumeration ∧ Below v a.maxExclusive ∧ AtMost v (fixedOr (maxOf k) a.maxInclusive) ∧
  Above v a.minExclusive ∧ AtLeast v (fixedOr (minOf k) a.minInclusive) ∧ FitsDigits v a.totalDigits

/-- The rest of an integer literal after its first digit: digits, each optionally preceded by one underscore. -/
inductive IntTail : Str → List Nat → Prop where
  | nil : IntTail [] []
  | digit {c d s ds} : uniDigit? c = some d → IntTail s ds → IntTail (c :: s) (d :: ds)
  | underscore {c d s ds} : uniDigit? c = some d → IntTail s ds → IntTail ('_' :: c :: s) (d :: ds)

/-- Digits of an unsigned integer literal. -/
inductive IntDigits : Str → List Nat → Prop where
  | mk {c d s ds} : uniDigit? c = some d → IntTail s ds → IntDigits (c :: s) (d :: ds)

/-- The text `s` denotes the integer `i`: white space, optional sign, digits, white space. -/
inductive Denotes : Str → Int → Prop where
  | pos {l body r : Str} {ds : List Nat} (sign : Str) : (∀ c ∈ l, isSpace c = true) → (∀ c ∈ r, isSpace c = true) →
      (sign = [] ∨ sign = ['+']) → IntDigits body ds →
      Denotes (l ++ (sign ++ body) ++ r) (digitsNat ds)
  | neg {l body r : Str} {ds : List Nat} : (∀ c ∈ l, isSpace c = true) → (∀ c ∈ r, isSpace c = true) →
      IntDigits body ds → Denotes (l ++ ('-' :: body) ++ r) (-(digitsNat ds : Int))

end Soapfish.Spec
