import Verif.Spec.Numbers
/-!
Independent specification of the texts of numbers in XML (W3C XML Schema part 2, 3.2.3 decimal, 3.2.4 float, 3.2.5 double),
with the number each denotes.
-/
namespace Soapfish.Spec

/-- Only the digits 0 to 9. -/
def AllFigures (s : Str) : Prop := ∀ c ∈ s, '0'.toNat ≤ c.toNat ∧ c.toNat ≤ '9'.toNat

/-- The number written by digits, most significant first. -/
def figures (s : Str) : Nat := s.foldl (fun n c => 10 * n + (c.toNat - '0'.toNat)) 0

/-- Digits with at most one point, at least one digit in all. -/
inductive UnsignedDecimal : Str → ℚ → Prop where
  | whole {s} : s ≠ [] → AllFigures s → UnsignedDecimal s (figures s)
  | point {a b} : a ++ b ≠ [] → AllFigures a → AllFigures b →
      UnsignedDecimal (a ++ '.' :: b) ((figures (a ++ b) : ℚ) / 10 ^ b.length)

/-- `xsd:decimal`: an optional sign before. -/
inductive XsdDecimal : Str → ℚ → Prop where
  | bare {s x} : UnsignedDecimal s x → XsdDecimal s x
  | plus {s x} : UnsignedDecimal s x → XsdDecimal ('+' :: s) x
  | minus {s x} : UnsignedDecimal s x → XsdDecimal ('-' :: s) (-x)

/-- An integer with an optional sign. -/
inductive XsdExponent : Str → Int → Prop where
  | bare {s} : s ≠ [] → AllFigures s → XsdExponent s (figures s)
  | plus {s} : s ≠ [] → AllFigures s → XsdExponent ('+' :: s) (figures s)
  | minus {s} : s ≠ [] → AllFigures s → XsdExponent ('-' :: s) (-(figures s : Int))

/-- The numbers of `xsd:float` and `xsd:double`: a decimal, and optionally `e` or `E` and a power of ten. -/
inductive XsdNumber : Str → ℚ → Prop where
  | plain {s x} : XsdDecimal s x → XsdNumber s x
  | power {s x c t k} : XsdDecimal s x → c = 'e' ∨ c = 'E' → XsdExponent t k → XsdNumber (s ++ c :: t) (x * 10 ^ k)

/-- The texts of `xsd:float` and `xsd:double`. -/
def XsdDouble (s : Str) : Prop := (∃ x, XsdNumber s x) ∨ s = py"INF" ∨ s = py"-INF" ∨ s = py"NaN"

end Soapfish.Spec
