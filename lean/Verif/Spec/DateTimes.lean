import Verif.Spec.Dates
/-!
What is assumed of `iso8601.parse_date` (an external library) on the texts soapfish itself writes.
-/
namespace Soapfish.Spec

/-- A time of day with whole seconds. -/
def WholeTime (t : TimeV) : Prop := t.hour < 24 ∧ t.minute < 60 ∧ t.second < 60 ∧ t.micro = 0

/-- Two decimal digits of a number below 100. -/
def two (n : Nat) : Str := [digitChar (n / 10), digitChar (n % 10)]

/-- The canonical text `YYYY-MM-DDTHH:MM:SS` of a date with a four-digit year. -/
def isoText (y m d : Nat) (t : TimeV) : Str :=
  two (y / 100) ++ two (y % 100) ++ ['-'] ++ two m ++ ['-'] ++ two d ++ ['T'] ++
  two t.hour ++ [':'] ++ two t.minute ++ [':'] ++ two t.second

/-- The canonical text `±HH:MM` of an offset in minutes. -/
def offsetText (n : Int) : Str :=
  (if 0 ≤ n then '+' else '-') :: (two (n.natAbs / 60) ++ [':'] ++ two (n.natAbs % 60))

/-- `iso8601.parse_date` understands canonical texts; without an offset it assumes UTC. -/
structure IsoCanonical (iso : Iso) : Prop where
  offset : ∀ y m d t n, RealDate y m d → 1000 ≤ y → WholeTime t → -1440 < n → n < 1440 →
    iso (isoText y m d t ++ offsetText n) = .ok (⟨y, m, d⟩, t, some ⟨n * 60000000⟩)
  naive : ∀ y m d t, RealDate y m d → 1000 ≤ y → WholeTime t →
    iso (isoText y m d t) = .ok (⟨y, m, d⟩, t, some ⟨0⟩)

end Soapfish.Spec
