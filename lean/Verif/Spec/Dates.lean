import Verif.Simple
/-!
Independent specification for dates: the texts that spell a date, calendar dates, offsets.
-/
namespace Soapfish.Spec

/-- A date of the Gregorian calendar with a year from 1 to 9999. -/
def RealDate (y m d : Nat) : Prop :=
  1 ≤ y ∧ y ≤ 9999 ∧ 1 ≤ d ∧
  ((m ∈ [1, 3, 5, 7, 8, 10, 12] ∧ d ≤ 31) ∨ (m ∈ [4, 6, 9, 11] ∧ d ≤ 30) ∨
   (m = 2 ∧ (d ≤ 28 ∨ d = 29 ∧ y % 4 = 0 ∧ (y % 100 ≠ 0 ∨ y % 400 = 0))))

/-- The text of an offset: nothing, `Z`, or a sign, two digits of hours, an optional colon and two digits of minutes.
The second component is the offset in minutes, if any. -/
inductive OffsetText : Str → Option Int → Prop where
  | absent : OffsetText [] none
  | zulu : OffsetText ['Z'] (some 0)
  | plus {a b c d : Char} {h1 h2 m1 m2 : Nat} (colon : Str) : (colon = [] ∨ colon = [':']) →
      asciiDigit? a = some h1 → asciiDigit? b = some h2 → asciiDigit? c = some m1 → asciiDigit? d = some m2 →
      OffsetText ('+' :: a :: b :: (colon ++ [c, d])) (some (((h1 * 10 + h2) * 60 + (m1 * 10 + m2) : Nat) : Int))
  | minus {a b c d : Char} {h1 h2 m1 m2 : Nat} (colon : Str) : (colon = [] ∨ colon = [':']) →
      asciiDigit? a = some h1 → asciiDigit? b = some h2 → asciiDigit? c = some m1 → asciiDigit? d = some m2 →
      OffsetText ('-' :: a :: b :: (colon ++ [c, d])) (some (-(((h1 * 10 + h2) * 60 + (m1 * 10 + m2) : Nat) : Int)))

/-- The text of an offset that has hours but no minutes. -/
inductive HoursOnly : Str → Prop where
  | mk {s a b : Char} {h1 h2 : Nat} (colon : Str) : (s = '+' ∨ s = '-') → (colon = [] ∨ colon = [':']) →
      asciiDigit? a = some h1 → asciiDigit? b = some h2 → HoursOnly (s :: a :: b :: colon)

/-- Digit characters with their values. -/
inductive Digits : Str → List Nat → Prop where
  | nil : Digits [] []
  | cons {c d s ds} : uniDigit? c = some d → Digits s ds → Digits (c :: s) (d :: ds)

/-- The text `s` spells year, month, day and an offset text: an optional `-`, at least four year digits, `-`, two month
digits, `-`, two day digits, the offset, an optional final newline. -/
inductive Spells : Str → Nat → Nat → Nat → Str → Prop where
  | mk {ys : Str} {yd : List Nat} {a b c d : Char} {m1 m2 d1 d2 : Nat} (bc off nl : Str) :
      (bc = [] ∨ bc = ['-']) → Digits ys yd → 4 ≤ yd.length →
      uniDigit? a = some m1 → uniDigit? b = some m2 → uniDigit? c = some d1 → uniDigit? d = some d2 →
      (nl = [] ∨ nl = ['\n']) →
      Spells (bc ++ (ys ++ ('-' :: a :: b :: '-' :: c :: d :: (off ++ nl))))
        (digitsNat yd) (m1 * 10 + m2) (d1 * 10 + d2) off

end Soapfish.Spec
