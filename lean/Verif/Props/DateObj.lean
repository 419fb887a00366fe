import Verif.DateObj
import Verif.Props.Dates
/-
When date objects are equal (C113).
-/
namespace Soapfish
open Spec

/-- **C113 (dates).** Two XSDDates are equal exactly if year, month, day and offset are the same: not if they begin at the
same moment with different offsets, nor if only one of them has an offset. -/
theorem C113_dates (y m d y' m' d' : Nat) (tz tz' : Option Tz) :
    dateEq (.xsdDate ⟨y, m, d⟩ tz) (.xsdDate ⟨y', m', d'⟩ tz') = true ↔ y = y' ∧ m = m' ∧ d = d' ∧ tz = tz' := by
  simp [dateEq, xsdDateEq, attrDay, attrTz, and_assoc]

/-- **C113 (order).** The order of the two sides does not matter. -/
theorem C113_order (d : DateV) (tz : Option Tz) (v : Atom) : dateEq (.xsdDate d tz) v = dateEq v (.xsdDate d tz) := by
  cases v with
  | xsdDate d' tz' =>
    obtain ⟨y, m, e⟩ := d
    obtain ⟨y', m', e'⟩ := d'
    rw [Bool.eq_iff_iff, C113_dates, C113_dates]
    constructor <;> rintro ⟨rfl, rfl, rfl, rfl⟩ <;> exact ⟨rfl, rfl, rfl, rfl⟩
  | _ => rfl

/-- **C113 (plain dates).** No XSDDate is equal to a `datetime.date`. -/
theorem C113_plain (d d' : DateV) (tz : Option Tz) : dateEq (.xsdDate d tz) (.date d') = false := rfl

/-- **C113 (datetimes).** An XSDDate is equal to every datetime of that day with the same offset, so being equal is not
transitive. -/
theorem C113_datetimes (y m d y' m' d' : Nat) (t : TimeV) (tz tz' : Option Tz) :
    dateEq (.xsdDate ⟨y, m, d⟩ tz) (.datetime ⟨y', m', d'⟩ t tz') = true ↔ y = y' ∧ m = m' ∧ d = d' ∧ tz = tz' := by
  simp [dateEq, xsdDateEq, attrDay, attrTz, and_assoc]

/-- **C113 (others).** Nothing else is equal to an XSDDate. -/
theorem C113_others (d : DateV) (tz : Option Tz) (v : Atom) (h : dateEq (.xsdDate d tz) v = true) :
    (∃ d' tz', v = .xsdDate d' tz') ∨ ∃ d' t tz', v = .datetime d' t tz' := by
  cases v with
  | xsdDate d' tz' => exact .inl ⟨_, _, rfl⟩
  | datetime d' t tz' => exact .inr ⟨_, _, _, rfl⟩
  | _ => exact absurd h (by simp [dateEq, xsdDateEq, attrDay, attrTz])

/-- **C113 (fields).** A `datetime.date` assigned to a date field becomes an XSDDate: the one `from_datetime_date` makes,
which `as_datetime_date` takes back to the date.  The field is not equal to the date that was assigned to it. -/
theorem C113_field (y m d : Nat) (hr : RealDate y m d) :
    ∃ v, SType.date.accept (.date ⟨y, m, d⟩) = .ok v ∧ xsdDateFrom ⟨y, m, d⟩ = .ok v ∧ v = .xsdDate ⟨y, m, d⟩ none ∧
      asDatetimeDate ⟨y, m, d⟩ = .ok ⟨y, m, d⟩ ∧ dateEq v (.date ⟨y, m, d⟩) = false := by
  rcases mkXSDDate_eq y m d none with ⟨_, he⟩ | ⟨hn, _⟩
  · refine ⟨_, he, he, rfl, ?_, rfl⟩
    unfold asDatetimeDate
    rw [if_pos ((valid_iff y m d).2 hr)]
  · exact absurd hr hn

/-- **C113 (reading).** What is read from the text written for a date of this or the last millennium is equal to the
date written, whatever the offset in minutes, and equal to no other XSDDate. -/
theorem C113_read (y m d : Nat) (o : Option Int) (hr : RealDate y m d) (hy : 1000 ≤ y)
    (ho : ∀ n, o = some n → -1440 < n ∧ n < 1440) (s : Str)
    (hs : SType.date.xmlvalue (dateValue y m d o) = .ok (some s)) :
    ∃ v, SType.date.pythonvalue (.str s) = .ok v ∧ dateEq v (dateValue y m d o) = true ∧
      ∀ y' m' d' o', dateEq v (dateValue y' m' d' o') = true → y' = y ∧ m' = m ∧ d' = d ∧ o' = o := by
  obtain ⟨_, s', h1, h2⟩ := C10_date_roundtrip y m d o hr hy ho
  rw [hs] at h1
  injection h1 with h1
  injection h1 with h1
  subst h1
  refine ⟨_, h2, (C113_dates ..).2 ⟨rfl, rfl, rfl, rfl⟩, ?_⟩
  intro y' m' d' o' h
  obtain ⟨rfl, rfl, rfl, h⟩ := (C113_dates ..).1 h
  refine ⟨rfl, rfl, rfl, ?_⟩
  cases o <;> cases o' <;> simp_all
  omega

/-- The first of May is equal to each of two times of that day, which differ; and a date with an offset is not equal to
the date without. -/
example : dateEq (.xsdDate ⟨2024, 5, 1⟩ none) (.datetime ⟨2024, 5, 1⟩ ⟨8, 0, 0, 0⟩ none) = true ∧
    dateEq (.datetime ⟨2024, 5, 1⟩ ⟨9, 30, 0, 0⟩ none) (.xsdDate ⟨2024, 5, 1⟩ none) = true ∧
    dateEq (.xsdDate ⟨2024, 5, 1⟩ none) (.xsdDate ⟨2024, 5, 1⟩ (some ⟨0⟩)) = false := by decide
example : ∃ v, SType.date.accept (.date ⟨2024, 2, 29⟩) = .ok v ∧ dateEq v (.date ⟨2024, 2, 29⟩) = false :=
  ⟨_, rfl, rfl⟩

end Soapfish
