import Verif.Spec.DateTimes
import Verif.Props.Dates
/-!
C14: DateTime and Time round trip, relative to the stated behaviour of `iso8601.parse_date`.
-/
namespace Soapfish
open Spec

theorem pad2_two_eq {n : Nat} (h : n < 100) : pad2 n = two n := pad2_digits h

theorem natStr_four {y : Nat} (h1 : 1000 ≤ y) (h2 : y ≤ 9999) : natStr y = two (y / 100) ++ two (y % 100) := by
  rw [natStr_ge (by omega), natStr_ge (by omega), natStr_ge (by omega), natStr_lt (by omega)]
  simp only [two, List.cons_append, List.nil_append]
  rw [show y / 10 / 10 / 10 = y / 100 / 10 by omega, show y / 10 / 10 % 10 = y / 100 % 10 by omega,
    show y / 10 % 10 = y % 100 / 10 by omega, show y % 10 = y % 100 % 10 by omega]

theorem realDate_lt {y m d : Nat} (h : RealDate y m d) : m < 100 ∧ d < 100 := by
  rcases h.2.2.2 with ⟨h, h'⟩ | ⟨h, h'⟩ | ⟨h, h'⟩ <;> (try simp at h) <;> omega

theorem dateTime_text (y m d : Nat) (t : TimeV) (h : RealDate y m d) (hy : 1000 ≤ y) (ht : WholeTime t) (r : Str) :
    dateStr ⟨y, m, d⟩ ++ 'T' :: (timeStr t ++ r) = isoText y m d t ++ r := by
  obtain ⟨h1, h2, h3, _⟩ := ht
  obtain ⟨hm, hd⟩ := realDate_lt h
  simp only [dateStr, timeStr, isoText, natStr_four hy h.2.1, pad2_two_eq hm, pad2_two_eq hd,
    pad2_two_eq (show t.hour < 100 by omega), pad2_two_eq (show t.minute < 100 by omega),
    pad2_two_eq (show t.second < 100 by omega)]
  simp [two]

theorem offset_text_eq (n : Int) (h1 : -1440 < n) (h2 : n < 1440) : offsetStr (n * 60000000) = offsetText n := by
  have hs : (n * 60000000 / 1000000).natAbs = n.natAbs * 60 := by
    rw [show n * 60000000 / 1000000 = n * 60 by omega]; omega
  simp only [offsetStr, offsetText, hs]
  rw [show n.natAbs * 60 / 3600 = n.natAbs / 60 by omega, show n.natAbs * 60 % 3600 / 60 = n.natAbs % 60 by omega,
    pad2_two_eq (by omega), pad2_two_eq (by omega)]
  by_cases h : 0 ≤ n
  · rw [if_pos (by omega), if_pos h]; simp [two]
  · rw [if_neg (by omega), if_neg h]; simp [two]

theorem isoText_ne_nil (y m d : Nat) (t : TimeV) (r : Str) : isoText y m d t ++ r ≠ py"nil" := by
  intro h
  have := congrArg List.length h
  simp [isoText, two] at this

/-- C14: a DateTime from year 1000 on, in whole seconds, with a whole-minute offset, is written as text which reads
back as the same value. -/
theorem C14_datetime_roundtrip (iso : Iso) (hiso : IsoCanonical iso) (y m d : Nat) (t : TimeV) (n : Int)
    (h : RealDate y m d) (hy : 1000 ≤ y) (ht : WholeTime t) (h1 : -1440 < n) (h2 : n < 1440) :
    let v := Atom.datetime ⟨y, m, d⟩ t (some ⟨n * 60000000⟩)
    (SType.datetime iso).accept v = .ok v ∧
    (SType.datetime iso).xmlvalue v = .ok (some (isoText y m d t ++ offsetText n)) ∧
    (SType.datetime iso).pythonvalue (.str (isoText y m d t ++ offsetText n)) = .ok v := by
  refine ⟨rfl, ?_, ?_⟩
  · simp only [SType.xmlvalue, datetimeXml, tzSuffix, dateTime_text y m d t h hy ht, offset_text_eq n h1 h2]
  · simp only [SType.pythonvalue, datetimePy, if_neg (isoText_ne_nil _ _ _ _ _),
      hiso.offset y m d t n h hy ht h1 h2, Except.map]

/-- C14: without an offset the value comes back in UTC. -/
theorem C14_datetime_naive (iso : Iso) (hiso : IsoCanonical iso) (y m d : Nat) (t : TimeV)
    (h : RealDate y m d) (hy : 1000 ≤ y) (ht : WholeTime t) :
    (SType.datetime iso).xmlvalue (.datetime ⟨y, m, d⟩ t none) = .ok (some (isoText y m d t)) ∧
    (SType.datetime iso).pythonvalue (.str (isoText y m d t)) = .ok (.datetime ⟨y, m, d⟩ t (some ⟨0⟩)) := by
  have hT := dateTime_text y m d t h hy ht []
  simp only [List.append_nil] at hT
  have hn := isoText_ne_nil y m d t []
  rw [List.append_nil] at hn
  refine ⟨?_, ?_⟩
  · simp only [SType.xmlvalue, datetimeXml, tzSuffix, List.append_nil, hT]
  · simp only [SType.pythonvalue, datetimePy, if_neg hn, hiso.naive y m d t h hy ht, Except.map]

/-- C14: microseconds are dropped when writing. -/
theorem C14_datetime_micro (iso : Iso) (d : DateV) (t : TimeV) (tz : Option Tz) (us : Nat) :
    (SType.datetime iso).xmlvalue (.datetime d { t with micro := us } tz) =
      (SType.datetime iso).xmlvalue (.datetime d t tz) := rfl

theorem real1900 : RealDate 1900 1 1 := (valid_iff 1900 1 1).1 (by decide)

theorem time_text (t : TimeV) (ht : WholeTime t) (r : Str) :
    py"1900-01-01T" ++ (timeStr t ++ r) = isoText 1900 1 1 t ++ r := by
  have := dateTime_text 1900 1 1 t real1900 (by decide) ht r
  rw [← this]
  have hd : dateStr ⟨1900, 1, 1⟩ = py"1900-01-01" := by decide
  rw [hd]; rfl

theorem timeStr_ne_nil (t : TimeV) (r : Str) : timeStr t ++ r ≠ py"nil" := by
  intro h
  obtain ⟨_, hdig, _⟩ := pad2_spec t.hour
  cases hp : pad2 t.hour with
  | nil => have := (pad2_spec t.hour).1; simp [hp] at this
  | cons c cs =>
    have hc := hdig c (by simp [hp])
    have hn : c ≠ 'n' := hc.ne 'n' (by decide)
    simp [timeStr, hp] at h
    exact hn h.1

/-- C14: the same for Time. -/
theorem C14_time_roundtrip (iso : Iso) (hiso : IsoCanonical iso) (t : TimeV) (n : Int) (ht : WholeTime t)
    (h1 : -1440 < n) (h2 : n < 1440) :
    (SType.time iso).accept (.time t (some ⟨n * 60000000⟩)) = .ok (.time t (some ⟨n * 60000000⟩)) ∧
    ∃ s, (SType.time iso).xmlvalue (.time t (some ⟨n * 60000000⟩)) = .ok (some s) ∧
      (SType.time iso).pythonvalue (.str s) = .ok (.time t (some ⟨n * 60000000⟩)) := by
  refine ⟨rfl, timeStr t ++ offsetStr (n * 60000000), rfl, ?_⟩
  simp only [SType.pythonvalue, timePy, if_neg (timeStr_ne_nil _ _), timeParse, time_text t ht,
    offset_text_eq n h1 h2, hiso.offset 1900 1 1 t n real1900 (by decide) ht h1 h2]

theorem C14_time_naive (iso : Iso) (hiso : IsoCanonical iso) (t : TimeV) (ht : WholeTime t) :
    ∃ s, (SType.time iso).xmlvalue (.time t none) = .ok (some s) ∧
      (SType.time iso).pythonvalue (.str s) = .ok (.time t (some ⟨0⟩)) := by
  refine ⟨timeStr t ++ [], rfl, ?_⟩
  simp only [SType.pythonvalue, timePy, if_neg (timeStr_ne_nil _ _), timeParse, time_text t ht]
  rw [List.append_nil, hiso.naive 1900 1 1 t real1900 (by decide) ht]

/-! A concrete parser meeting `IsoCanonical`, so that the theorems above are not vacuous. -/

def two? (a b : Char) : Option Nat := twoDigits? asciiDigit? a b

def isoRefOffset : Str → Option Int
  | [] => some 0
  | [s, a, b, ':', c, d] =>
    match two? a b, two? c d with
    | some h, some m => if s = '+' then some ((h * 60 + m : Nat) : Int) else some (-((h * 60 + m : Nat) : Int))
    | _, _ => none
  | _ => none

def isoRef : Iso
  | y1 :: y2 :: y3 :: y4 :: '-' :: m1 :: m2 :: '-' :: d1 :: d2 :: 'T' ::
      h1 :: h2 :: ':' :: n1 :: n2 :: ':' :: s1 :: s2 :: r =>
    match two? y1 y2, two? y3 y4, two? m1 m2, two? d1 d2, two? h1 h2, two? n1 n2, two? s1 s2, isoRefOffset r with
    | some a, some b, some m, some d, some h, some n, some s, some o =>
      .ok (⟨a * 100 + b, m, d⟩, ⟨h, n, s, 0⟩, some ⟨o * 60000000⟩)
    | _, _, _, _, _, _, _, _ => .error .valueError
  | _ => .error .valueError

theorem two?_two {n : Nat} (h : n < 100) : two? (digitChar (n / 10)) (digitChar (n % 10)) = some n := by
  simp only [two?, twoDigits_eq (asciiDigit_digitChar (n / 10) (by omega)) (asciiDigit_digitChar (n % 10) (by omega))]
  congr 1; omega

theorem isoRef_text (y m d : Nat) (t : TimeV) (h : RealDate y m d) (ht : WholeTime t) (r : Str) (o : Int)
    (hr : isoRefOffset r = some o) :
    isoRef (isoText y m d t ++ r) = .ok (⟨y, m, d⟩, t, some ⟨o * 60000000⟩) := by
  obtain ⟨h1, h2, h3, h4⟩ := ht
  obtain ⟨hm, hd⟩ := realDate_lt h
  have hy := h.2.1
  simp only [isoText, two, List.cons_append, List.nil_append, isoRef, two?_two hm, two?_two hd,
    two?_two (show y / 100 < 100 by omega), two?_two (show y % 100 < 100 by omega),
    two?_two (show t.hour < 100 by omega), two?_two (show t.minute < 100 by omega),
    two?_two (show t.second < 100 by omega), hr]
  rw [show y / 100 * 100 + y % 100 = y by omega]
  cases t; simp at h4; simp [h4]

theorem isoRef_canonical : IsoCanonical isoRef where
  offset y m d t n h hy ht h1 h2 := by
    refine isoRef_text y m d t h ht _ n ?_
    simp only [offsetText, two, List.cons_append, List.nil_append, isoRefOffset,
      two?_two (show n.natAbs / 60 < 100 by omega), two?_two (show n.natAbs % 60 < 100 by omega)]
    by_cases hn : 0 ≤ n
    · rw [if_pos (by rw [if_pos hn])]
      congr 1; omega
    · rw [if_neg (by rw [if_neg hn]; decide)]
      congr 1; omega
  naive y m d t h hy ht := by
    have := isoRef_text y m d t h ht [] 0 rfl
    simpa using this

example : (SType.datetime isoRef).xmlvalue (.datetime ⟨2001, 10, 26⟩ ⟨21, 32, 52, 0⟩ (some ⟨7200000000⟩)) =
    .ok (some py"2001-10-26T21:32:52+02:00") := by decide

end Soapfish
