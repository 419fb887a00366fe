import Verif.Spec.Integers
import Verif.Spec.Numbers
/-!
Independent specification of the texts Python takes for a float (`float`, Python Library Reference, built-in functions): digits
of any script, single underscores between digits, a point, a power of ten, the words for infinity and NaN in any case,
and white space around.
-/
namespace Soapfish.Spec

/-- Digits with single underscores between them, or nothing. -/
def MaybeDigits (s : Str) (ds : List Nat) : Prop := (s = [] ∧ ds = []) ∨ IntDigits s ds

/-- Digits with at most one point, at least one digit in all, and the number they denote. -/
inductive FloatBody : Str → ℚ → Prop where
  | whole {a da} : IntDigits a da → FloatBody a (digitsNat da)
  | point {a da b db} : MaybeDigits a da → MaybeDigits b db → a ++ b ≠ [] →
      FloatBody (a ++ '.' :: b) ((digitsNat (da ++ db) : ℚ) / 10 ^ db.length)

/-- Nothing, or `e` or `E`, an optional sign and digits; the power of ten they denote. -/
inductive FloatPower : Str → Int → Prop where
  | none : FloatPower [] 0
  | bare {c s ds} : c = 'e' ∨ c = 'E' → IntDigits s ds → FloatPower (c :: s) (digitsNat ds)
  | plus {c s ds} : c = 'e' ∨ c = 'E' → IntDigits s ds → FloatPower (c :: '+' :: s) (digitsNat ds)
  | minus {c s ds} : c = 'e' ∨ c = 'E' → IntDigits s ds → FloatPower (c :: '-' :: s) (-(digitsNat ds : Int))

/-- An optional sign: is it a minus? -/
inductive SignText : Str → Bool → Prop where
  | none : SignText [] false
  | plus : SignText ['+'] false
  | minus : SignText ['-'] true

/-- White space, an optional sign, `core`, white space. -/
def Framed (s core : Str) (neg : Bool) : Prop :=
  ∃ l sign r, s = l ++ (sign ++ core) ++ r ∧ (∀ c ∈ l, isSpace c = true) ∧ (∀ c ∈ r, isSpace c = true) ∧
    SignText sign neg

/-- The text denotes the number `x`; `neg`: it has a minus sign. -/
def NumberText (s : Str) (neg : Bool) (x : ℚ) : Prop :=
  ∃ body pow y e, Framed s (body ++ pow) neg ∧ FloatBody body y ∧ FloatPower pow e ∧
    x = (if neg then -y else y) * 10 ^ e

/-- The text denotes infinity. -/
def InfinityText (s : Str) (neg : Bool) : Prop :=
  ∃ w, Framed s w neg ∧ (lower w = py"inf" ∨ lower w = py"infinity")

/-- The text denotes NaN. -/
def NanText (s : Str) : Prop := ∃ w neg, Framed s w neg ∧ lower w = py"nan"

end Soapfish.Spec
