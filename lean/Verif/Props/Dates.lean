import Verif.Spec.Dates
import Verif.SimpleLemmas
/-!
Properties of Date, and of time-zone offsets: C10 - C13.
-/
namespace Soapfish
open Spec

/-! ### Calendar -/

theorem valid_iff (y m d : Nat) : (DateV.mk y m d).valid = true ↔ RealDate y m d := by
  simp only [DateV.valid, RealDate, Bool.and_eq_true, decide_eq_true_eq, List.mem_cons, List.not_mem_nil, or_false]
  simp only [daysInMonth]
  constructor
  · rintro ⟨⟨⟨⟨⟨h1, h2⟩, h3⟩, h4⟩, h5⟩, h6⟩
    refine ⟨h1, h2, h5, ?_⟩
    by_cases hm : m = 2
    · subst hm
      right; right
      refine ⟨rfl, ?_⟩
      simp only [if_true] at h6
      split at h6
      · next hl =>
        simp [isLeap] at hl
        omega
      · omega
    · rw [if_neg hm] at h6
      split at h6
      · next h => right; left; omega
      · next h => left; omega
  · rintro ⟨h1, h2, h3, h⟩
    rcases h with ⟨hm, hd⟩ | ⟨hm, hd⟩ | ⟨hm, hd⟩
    · rw [if_neg (by omega), if_neg (by omega)]; omega
    · rw [if_neg (by omega), if_pos (by omega)]; omega
    · subst hm
      rw [if_pos rfl]
      rcases hd with hd | ⟨hd, h4, h5⟩
      · refine ⟨⟨⟨⟨⟨h1, h2⟩, by omega⟩, by omega⟩, h3⟩, ?_⟩
        split <;> omega
      · have hl : isLeap y = true := by
          simp [isLeap]; omega
        rw [if_pos hl]; omega

theorem mkXSDDate_eq (y m d : Nat) (tz : Option Tz) :
    (RealDate y m d ∧ mkXSDDate y m d tz = .ok (.xsdDate ⟨y, m, d⟩ tz)) ∨
    (¬ RealDate y m d ∧ mkXSDDate y m d tz = .error (if y > 2147483647 then .overflowError else .valueError)) := by
  unfold mkXSDDate
  by_cases h : RealDate y m d
  · left
    refine ⟨h, ?_⟩
    rw [if_neg (by have := h.2.1; omega), if_pos ((valid_iff y m d).2 h)]
  · right
    refine ⟨h, ?_⟩
    have hv : ¬ (DateV.mk y m d).valid = true := fun hv => h ((valid_iff y m d).1 hv)
    by_cases hy : y > 2147483647
    · rw [if_pos hy, if_pos hy]
    · rw [if_neg hy, if_neg hy, if_neg hv]

/-! ### The date expression -/

theorem takeDigits_spec (s : Str) :
    ∃ p, s = p ++ (takeDigits s).2 ∧ Digits p (takeDigits s).1 ∧
      (∀ c, (takeDigits s).2.head? = some c → uniDigit? c = none) := by
  induction s with
  | nil => exact ⟨[], rfl, .nil, by simp [takeDigits]⟩
  | cons c cs ih =>
    simp only [takeDigits]
    cases h : uniDigit? c with
    | none => exact ⟨[], rfl, .nil, by simp [h]⟩
    | some d =>
      obtain ⟨p, h1, h2, h3⟩ := ih
      refine ⟨c :: p, ?_, .cons h h2, h3⟩
      simp only [List.cons_append]; rw [← h1]

theorem takeDigits_digits {p : Str} {ds : List Nat} (h : Digits p ds) (r : Str)
    (hr : ∀ c, r.head? = some c → uniDigit? c = none) : takeDigits (p ++ r) = (ds, r) := by
  induction h with
  | nil =>
    cases r with
    | nil => rfl
    | cons c cs => simp [takeDigits, hr c rfl]
  | cons hd _ ih => simp [takeDigits, hd, ih]

theorem digits_length {p : Str} {ds : List Nat} (h : Digits p ds) : p.length = ds.length := by
  induction h with
  | nil => rfl
  | cons _ _ ih => simp [ih]

theorem twoDigits_some {dig : Char → Option Nat} {a b : Char} {n : Nat} (h : twoDigits? dig a b = some n) :
    ∃ x y, dig a = some x ∧ dig b = some y ∧ n = x * 10 + y := by
  unfold twoDigits? at h
  split at h
  · next x y h1 h2 => injection h with h; exact ⟨x, y, h1, h2, h.symm⟩
  · cases h

theorem twoDigits_eq {dig : Char → Option Nat} {a b : Char} {x y : Nat} (h1 : dig a = some x) (h2 : dig b = some y) :
    twoDigits? dig a b = some (x * 10 + y) := by
  simp [twoDigits?, h1, h2]

/-- Texts of the time-zone part, with what the expression captures. -/
inductive TzForm : Str → TzText → Prop where
  | absent : TzForm [] .absent
  | zulu : TzForm ['Z'] .zulu
  | hours {s a b : Char} {x y : Nat} (colon : Str) : (s = '+' ∨ s = '-') → (colon = [] ∨ colon = [':']) →
      asciiDigit? a = some x → asciiDigit? b = some y →
      TzForm (s :: a :: b :: colon) (.offset (s == '-') (x * 10 + y) none)
  | full {s a b c d : Char} {x y z w : Nat} (colon : Str) : (s = '+' ∨ s = '-') → (colon = [] ∨ colon = [':']) →
      asciiDigit? a = some x → asciiDigit? b = some y → asciiDigit? c = some z → asciiDigit? d = some w →
      TzForm (s :: a :: b :: (colon ++ [c, d])) (.offset (s == '-') (x * 10 + y) (some (z * 10 + w)))

theorem colon_not_digit : asciiDigit? ':' = none := by decide

theorem parseTzBody_sound (s : Char) (hs : s = '+' ∨ s = '-') (r : Str) (t : TzText)
    (h : parseTzBody (s == '-') r = some t) : TzForm (s :: r) t := by
  unfold parseTzBody at h
  split at h
  · next h1 h2 r =>
    split at h
    · cases h
    · next hh heq =>
      obtain ⟨x, y, hx, hy, rfl⟩ := twoDigits_some heq
      split at h
      · injection h with h; subst h; exact .hours [] hs (.inl rfl) hx hy
      · next c =>
        split at h
        · next hc => injection h with h; subst h; subst hc; exact .hours [':'] hs (.inr rfl) hx hy
        · cases h
      · next m1 m2 =>
        simp only [Option.map_eq_some_iff] at h
        obtain ⟨m, hm, rfl⟩ := h
        obtain ⟨z, w, hz, hw, rfl⟩ := twoDigits_some hm
        exact .full [] hs (.inl rfl) hx hy hz hw
      · next c m1 m2 =>
        split at h
        · next hc =>
          subst hc
          simp only [Option.map_eq_some_iff] at h
          obtain ⟨m, hm, rfl⟩ := h
          obtain ⟨z, w, hz, hw, rfl⟩ := twoDigits_some hm
          exact .full [':'] hs (.inr rfl) hx hy hz hw
        · cases h
      · cases h
  · cases h

theorem parseTz_iff (r : Str) (t : TzText) : parseTz r = some t ↔ TzForm r t := by
  constructor
  · intro h
    unfold parseTz at h
    split at h
    · injection h with h; subst h; exact .absent
    · next c r =>
      split at h
      · next hc =>
        split at h
        · next hr => injection h with h; subst h; subst hc; subst hr; exact .zulu
        · cases h
      · split at h
        · next hc => subst hc; exact parseTzBody_sound '+' (.inl rfl) r t h
        · split at h
          · next hc => subst hc; exact parseTzBody_sound '-' (.inr rfl) r t h
          · cases h
  · intro h
    cases h with
    | absent => rfl
    | zulu => rfl
    | @hours s a b x y colon hs hc ha hb =>
      rcases hs with rfl | rfl <;> rcases hc with rfl | rfl <;>
        simp [parseTz, parseTzBody, twoDigits_eq ha hb]
    | @full s a b c d x y z w colon hs hc ha hb hc' hd =>
      rcases hs with rfl | rfl <;> rcases hc with rfl | rfl <;>
        simp [parseTz, parseTzBody, twoDigits_eq ha hb, twoDigits_eq hc' hd]

theorem newline_not_digit : asciiDigit? '\n' = none := by decide

theorem tzForm_no_newline {r : Str} {t : TzText} (h : TzForm r t) : r.getLast? ≠ some '\n' := by
  cases h with
  | absent => simp
  | zulu => decide
  | @hours s a b x y colon hs hc ha hb =>
    rcases hc with rfl | rfl
    · intro he
      simp at he
      rw [he, newline_not_digit] at hb; cases hb
    · simp
  | @full s a b c d x y z w colon hs hc ha hb hc' hd =>
    intro he
    have : d = '\n' := by
      rcases hc with rfl | rfl <;> simpa using he
    rw [this, newline_not_digit] at hd; cases hd

theorem parseTzEnd_iff (r : Str) (t : TzText) :
    parseTzEnd r = some t ↔ ∃ off nl, r = off ++ nl ∧ (nl = [] ∨ nl = ['\n']) ∧ TzForm off t := by
  unfold parseTzEnd
  constructor
  · intro h
    split at h
    · next t' ht =>
      injection h with h; subst h
      exact ⟨r, [], by simp, .inl rfl, (parseTz_iff r _).1 ht⟩
    · split at h
      · next hl =>
        refine ⟨r.dropLast, ['\n'], ?_, .inr rfl, (parseTz_iff _ _).1 h⟩
        have hne : r ≠ [] := by rintro rfl; simp at hl
        have := List.dropLast_concat_getLast hne
        rw [List.getLast?_eq_some_getLast hne] at hl
        injection hl with hl
        rw [hl] at this
        exact this.symm
      · cases h
  · rintro ⟨off, nl, rfl, hnl, hf⟩
    rcases hnl with rfl | rfl
    · rw [List.append_nil, (parseTz_iff off t).2 hf]
    · have hnone : parseTz (off ++ ['\n']) = none := by
        cases hp : parseTz (off ++ ['\n']) with
        | none => rfl
        | some t' => exact absurd (by simp) (tzForm_no_newline ((parseTz_iff _ _).1 hp))
      rw [hnone]
      simp [(parseTz_iff off t).2 hf]

theorem dash_not_digit : uniDigit? '-' = none := by decide

theorem matchDate_iff (s : Str) (y m d : Nat) (t : TzText) :
    matchDate s = some (y, m, d, t) ↔ ∃ off, Spells s y m d off ∧ TzForm off t := by
  constructor
  · intro h
    unfold matchDate at h
    obtain ⟨bc, body, hbc, hs, hb⟩ : ∃ bc body, (bc = [] ∨ bc = ['-']) ∧ s = bc ++ body ∧
        dropMinus s = body := by
      unfold dropMinus
      split
      · next r => exact ⟨['-'], r, .inr rfl, rfl, rfl⟩
      · exact ⟨[], s, .inl rfl, rfl, rfl⟩
    simp only [hb] at h
    obtain ⟨p, hp, hd, _⟩ := takeDigits_spec body
    split at h
    · cases h
    · next hlen =>
      split at h
      · next m1 m2 d1 d2 rest hrest =>
        split at h
        · next mm dd tt hm hdd ht =>
          obtain ⟨x, z, hx, hz, rfl⟩ := twoDigits_some hm
          obtain ⟨u, v, hu, hv, rfl⟩ := twoDigits_some hdd
          obtain ⟨off, nl, rfl, hnl, hf⟩ := (parseTzEnd_iff _ _).1 ht
          injection h with h
          simp only [Prod.mk.injEq] at h
          obtain ⟨rfl, rfl, rfl, rfl⟩ := h
          refine ⟨off, ?_, hf⟩
          rw [hrest] at hp
          generalize (takeDigits body).1 = yd at hd hlen ⊢
          rw [hs, hp]
          exact .mk bc off nl hbc hd (by omega) hx hz hu hv hnl
        · cases h
      · cases h
  · rintro ⟨off, hsp, hf⟩
    cases hsp with
    | @mk ys yd a b c d' m1 m2 d1 d2 bc off nl hbc hys hlen ha hb hc hd hnl =>
      have hbody : dropMinus (bc ++ (ys ++ ('-' :: a :: b :: '-' :: c :: d' :: (off ++ nl)))) = ys ++ ('-' :: a :: b :: '-' :: c :: d' :: (off ++ nl)) := by
        rcases hbc with rfl | rfl
        · cases hys with
          | nil => simp at hlen
          | @cons c0 d0 s0 ds0 h0 _ =>
            have : c0 ≠ '-' := by rintro rfl; rw [dash_not_digit] at h0; cases h0
            simp only [List.nil_append, List.cons_append, dropMinus]
            split
            · next he => injection he with he _; exact absurd he this
            · rfl
        · rfl
      unfold matchDate
      simp only [hbody]
      have htd := takeDigits_digits hys ('-' :: a :: b :: '-' :: c :: d' :: (off ++ nl))
        (by intro x hx; simp at hx; subst hx; exact dash_not_digit)
      simp only [htd]
      rw [if_neg (by omega)]
      simp [twoDigits_eq ha hb, twoDigits_eq hc hd, (parseTzEnd_iff _ t).2 ⟨off, nl, rfl, hnl, hf⟩]

/-! ### C11 -/

/-- The time zone read for an offset in minutes. -/
def offsetResult : Option Int → Except Exn (Option Tz)
  | none => .ok none
  | some n => if -1440 < n ∧ n < 1440 then .ok (some ⟨n * 60000000⟩) else .error .valueError

theorem offsetResult_ok (o : Option Int) (h : ∀ n, o = some n → -1440 < n ∧ n < 1440) :
    offsetResult o = .ok (o.map (fun n => (⟨n * 60000000⟩ : Tz))) := by
  cases o with
  | none => rfl
  | some n => simp only [offsetResult, if_pos (h n rfl), Option.map_some]

theorem tzForm_cases {off : Str} {t : TzText} (h : TzForm off t) :
    (∃ o, OffsetText off o ∧ tzOf t = offsetResult o) ∨
    (HoursOnly off ∧ tzOf t = .error .typeError) := by
  cases h with
  | absent => exact .inl ⟨none, .absent, rfl⟩
  | zulu => exact .inl ⟨some 0, .zulu, by decide⟩
  | @hours s a b x y colon hs hc ha hb => exact .inr ⟨.mk colon hs hc ha hb, rfl⟩
  | @full s a b c d x y z w colon hs hc ha hb hc' hd =>
    left
    rcases hs with rfl | rfl
    · refine ⟨_, .plus colon hc ha hb hc' hd, ?_⟩
      simp only [tzOf, offsetResult, tzOk, Bool.and_eq_true, decide_eq_true_eq, show (('+' : Char) == '-') = false by decide,
        Bool.false_eq_true, if_false]
      generalize (x * 10 + y) * 60 + (z * 10 + w) = k
      by_cases hk : k < 1440
      · rw [if_pos (by omega), if_pos (by omega)]; simp
      · rw [if_neg (by omega), if_neg (by omega)]
    · refine ⟨_, .minus colon hc ha hb hc' hd, ?_⟩
      simp only [tzOf, offsetResult, tzOk, Bool.and_eq_true, decide_eq_true_eq, show (('-' : Char) == '-') = true by decide, if_true]
      generalize (x * 10 + y) * 60 + (z * 10 + w) = k
      by_cases hk : k < 1440
      · rw [if_pos (by omega), if_pos (by omega)]; simp [Int.neg_mul]
      · rw [if_neg (by omega), if_neg (by omega)]

theorem offsetText_tzForm {off : Str} {o : Option Int} (h : OffsetText off o) : ∃ t, TzForm off t := by
  cases h with
  | absent => exact ⟨_, .absent⟩
  | zulu => exact ⟨_, .zulu⟩
  | plus colon hc ha hb hc' hd => exact ⟨_, .full colon (.inl rfl) hc ha hb hc' hd⟩
  | minus colon hc ha hb hc' hd => exact ⟨_, .full colon (.inr rfl) hc ha hb hc' hd⟩

theorem hoursOnly_tzForm {off : Str} (h : HoursOnly off) : ∃ t, TzForm off t := by
  cases h with
  | mk colon hs hc ha hb => exact ⟨_, .hours colon hs hc ha hb⟩

/-- The value read from a good text. -/
def dateValue (y m d : Nat) (o : Option Int) : Atom := .xsdDate ⟨y, m, d⟩ (o.map (fun n => ⟨n * 60000000⟩))

/-- C11: reading any text as a Date gives None (for 'nil'), or the real calendar date and offset spelled by the text,
or raises: TypeError for an offset without minutes, OverflowError for a year beyond a C int, ValueError otherwise.
`Spells` shows what is tolerated: a leading '-' and one final newline are dropped. -/
theorem C11_date_text (s : Str) :
    (s = py"nil" ∧ SType.date.pythonvalue (.str s) = .ok .none) ∨
    (∃ y m d off o, Spells s y m d off ∧ OffsetText off o ∧ RealDate y m d ∧ (∀ n, o = some n → -1440 < n ∧ n < 1440) ∧
      SType.date.pythonvalue (.str s) = .ok (dateValue y m d o)) ∨
    (∃ y m d off, Spells s y m d off ∧ HoursOnly off ∧ SType.date.pythonvalue (.str s) = .error .typeError) ∨
    (∃ y m d off o, Spells s y m d off ∧ OffsetText off o ∧ 2147483647 < y ∧
      (∀ n, o = some n → -1440 < n ∧ n < 1440) ∧ SType.date.pythonvalue (.str s) = .error .overflowError) ∨
    (∃ y m d off o, Spells s y m d off ∧ OffsetText off o ∧
      ((¬ RealDate y m d ∧ y ≤ 2147483647) ∨ ∃ n, o = some n ∧ ¬ (-1440 < n ∧ n < 1440)) ∧
      SType.date.pythonvalue (.str s) = .error .valueError) ∨
    (s ≠ py"nil" ∧ (∀ y m d off, Spells s y m d off → (∀ o, ¬ OffsetText off o) ∧ ¬ HoursOnly off) ∧
      SType.date.pythonvalue (.str s) = .error .valueError) := by
  by_cases hn : s = py"nil"
  · subst hn; exact .inl ⟨rfl, rfl⟩
  · right
    simp only [SType.pythonvalue, datePy, if_neg hn]
    cases hm : matchDate s with
    | none =>
      right; right; right; right
      refine ⟨hn, ?_, rfl⟩
      intro y m d off hsp
      constructor
      · intro o ho
        obtain ⟨t, ht⟩ := offsetText_tzForm ho
        have := (matchDate_iff s y m d t).2 ⟨off, hsp, ht⟩
        rw [hm] at this; cases this
      · intro ho
        obtain ⟨t, ht⟩ := hoursOnly_tzForm ho
        have := (matchDate_iff s y m d t).2 ⟨off, hsp, ht⟩
        rw [hm] at this; cases this
    | some p =>
      obtain ⟨y, m, d, t⟩ := p
      obtain ⟨off, hsp, hf⟩ := (matchDate_iff s y m d t).1 hm
      simp only
      rcases tzForm_cases hf with ⟨o, ho, htz⟩ | ⟨ho, htz⟩
      · rw [htz]
        by_cases hr : ∀ n, o = some n → -1440 < n ∧ n < 1440
        · rw [offsetResult_ok o hr, bind_ok]
          rcases mkXSDDate_eq y m d (o.map (fun n => (⟨n * 60000000⟩ : Tz))) with ⟨hreal, he⟩ | ⟨hreal, he⟩
          · left; exact ⟨y, m, d, off, o, hsp, ho, hreal, hr, he⟩
          · rw [he]
            by_cases hy : y > 2147483647
            · rw [if_pos hy]
              right; right; left
              exact ⟨y, m, d, off, o, hsp, ho, hy, hr, rfl⟩
            · rw [if_neg hy]
              right; right; right; left
              exact ⟨y, m, d, off, o, hsp, ho, .inl ⟨hreal, by omega⟩, rfl⟩
        · cases o with
          | none => simp at hr
          | some n =>
            have hr' : ¬ (-1440 < n ∧ n < 1440) := by simpa using hr
            simp only [offsetResult, if_neg hr']
            right; right; right; left
            exact ⟨y, m, d, off, some n, hsp, ho, .inr ⟨n, rfl, hr'⟩, rfl⟩
      · rw [htz]
        right; left
        exact ⟨y, m, d, off, hsp, ho, rfl⟩

theorem nat_digits (n : Nat) : ∃ ds, Digits (natStr n) ds ∧ digitsNat ds = n := by
  induction n using digits_induction with
  | h0 n h =>
    rw [natStr_lt h]
    exact ⟨[n], .cons (uniDigit_digitChar n h) .nil, by simp [digitsNat]⟩
  | h1 n h ih =>
    obtain ⟨ds, h1, h2⟩ := ih
    rw [natStr_ge h]
    refine ⟨ds ++ [n % 10], ?_, ?_⟩
    · clear h2
      generalize natStr (n / 10) = s at h1
      induction h1 with
      | nil => exact .cons (uniDigit_digitChar _ (by omega)) .nil
      | cons hd _ ih => exact .cons hd ih
    · simp only [digitsNat, List.foldl_append, List.foldl_cons, List.foldl_nil]
      rw [show List.foldl (fun a d => a * 10 + d) 0 ds = n / 10 from h2]
      omega

example : Spells py"-2001-10-26+02:00" 2001 10 26 py"+02:00" := by
  have : Digits py"2001" [2, 0, 0, 1] := .cons (by decide) (.cons (by decide) (.cons (by decide) (.cons (by decide) .nil)))
  exact .mk ['-'] py"+02:00" [] (.inr rfl) this (by decide) (a := '1') (b := '0') (c := '2') (d := '6')
    (m1 := 1) (m2 := 0) (d1 := 2) (d2 := 6) (by decide) (by decide) (by decide) (by decide) (.inl rfl)
/-- BC dates lose their sign, an offset without minutes is a TypeError. -/
example : SType.date.pythonvalue (.str py"-2001-10-26") = .ok (.xsdDate ⟨2001, 10, 26⟩ none) := by decide
example : SType.date.pythonvalue (.str py"2001-10-26+02") = .error .typeError := by decide
example : SType.date.pythonvalue (.str py"2001-02-29") = .error .valueError := by decide

/-! ### C13 -/

theorem pad2_spec (n : Nat) : 2 ≤ (pad2 n).length ∧ (∀ c ∈ pad2 n, IsDigit c) ∧
    ∃ ds, Digits (pad2 n) ds ∧ digitsNat ds = n := by
  obtain ⟨ds, h1, h2⟩ := nat_digits n
  unfold pad2
  split
  · next h =>
    refine ⟨?_, ?_, 0 :: ds, .cons (by decide) h1, ?_⟩
    · simp [natStr_lt h]
    · intro c hc
      simp only [List.mem_cons] at hc
      rcases hc with rfl | hc
      · exact ⟨0, by omega, by decide⟩
      · exact natStr_digits n c hc
    · rw [← h2]; simp [digitsNat]
  · next h =>
    refine ⟨?_, natStr_digits n, ds, h1, h2⟩
    have : ¬ (natStr n).length ≤ 1 := by
      rw [natStr_length_le]; omega
    omega

theorem digits_unique {s : Str} {d1 d2 : List Nat} (h1 : Digits s d1) (h2 : Digits s d2) : d1 = d2 := by
  induction h1 generalizing d2 with
  | nil => cases h2; rfl
  | cons hd _ ih =>
    cases h2 with
    | cons hd' ht => rw [hd] at hd'; injection hd' with hd'; rw [hd', ih ht]

theorem pad2_inj {m n : Nat} (h : pad2 m = pad2 n) : m = n := by
  obtain ⟨_, _, d1, h1, e1⟩ := pad2_spec m
  obtain ⟨_, _, d2, h2, e2⟩ := pad2_spec n
  rw [h] at h1
  rw [← e1, ← e2, digits_unique h1 h2]

/-- C13: the text of an offset (in microseconds) is sign, at least two hour digits, ':', two minute digits; sign and
digits denote the offset, rounded down to seconds, then truncated towards zero to minutes. -/
theorem C13_offset_text (us : Int) :
    ∃ (sign : Char) (hs ms : Str) (hd md : List Nat),
      offsetStr us = sign :: (hs ++ ':' :: ms) ∧ (sign = if 0 ≤ us then '+' else '-') ∧
      Digits hs hd ∧ 2 ≤ hs.length ∧ Digits ms md ∧ ms.length = 2 ∧ digitsNat md < 60 ∧
      digitsNat hd * 60 + digitsNat md = (us / 1000000).natAbs / 60 := by
  obtain ⟨h1, _, hd, h2, h3⟩ := pad2_spec ((us / 1000000).natAbs / 3600)
  obtain ⟨_, _, md, m2, m3⟩ := pad2_spec ((us / 1000000).natAbs % 3600 / 60)
  refine ⟨_, _, _, hd, md, rfl, rfl, h2, h1, m2, ?_, ?_, ?_⟩
  · rw [pad2_digits (by omega)]; rfl
  · rw [m3]; omega
  · rw [h3, m3]; omega

/-- C13: a whole number of minutes is denoted exactly: value and sign. -/
theorem C13_whole_minutes (n : Int) :
    ∃ (hs ms : Str) (hd md : List Nat),
      offsetStr (n * 60000000) = (if 0 ≤ n then '+' else '-') :: (hs ++ ':' :: ms) ∧
      Digits hs hd ∧ Digits ms md ∧ ms.length = 2 ∧ digitsNat md < 60 ∧
      n = (if 0 ≤ n then 1 else -1) * ((digitsNat hd * 60 + digitsNat md : Nat) : Int) := by
  obtain ⟨sign, hs, ms, hd, md, h1, h2, h3, _, h4, h5, h6, h7⟩ := C13_offset_text (n * 60000000)
  refine ⟨hs, ms, hd, md, ?_, h3, h4, h5, h6, ?_⟩
  · rw [h1, h2]
    by_cases h : 0 ≤ n
    · rw [if_pos (by omega), if_pos h]
    · rw [if_neg (by omega), if_neg h]
  · rw [show digitsNat hd * 60 + digitsNat md = (n * 60000000 / 1000000).natAbs / 60 from h7]
    have : n * 60000000 / 1000000 = n * 60 := by omega
    rw [this]
    by_cases h : 0 ≤ n
    · rw [if_pos h]; omega
    · rw [if_neg h]; omega

/-- C13: different whole-minute offsets have different texts. -/
theorem C13_injective (m n : Int) (h : offsetStr (m * 60000000) = offsetStr (n * 60000000)) : m = n := by
  obtain ⟨hs, ms, hd, md, h1, h2, h3, h4, _, h6⟩ := C13_whole_minutes m
  obtain ⟨hs', ms', hd', md', h1', h2', h3', h4', _, h6'⟩ := C13_whole_minutes n
  rw [h1, h1'] at h
  injection h with hsign h
  have hlen : hs.length = hs'.length := by
    have := congrArg List.length h
    simp at this; omega
  obtain ⟨e1, e2⟩ := List.append_inj h hlen
  injection e2 with _ e2
  subst e1; subst e2
  rw [digits_unique h2 h2', digits_unique h3 h3'] at h6
  have hs : (0 ≤ m) ↔ (0 ≤ n) := by
    by_cases hm : 0 ≤ m <;> by_cases hn : 0 ≤ n
    · exact ⟨fun _ => hn, fun _ => hm⟩
    · rw [if_pos hm, if_neg hn] at hsign; exact absurd hsign (by decide)
    · rw [if_neg hm, if_pos hn] at hsign; exact absurd hsign (by decide)
    · exact ⟨fun h => absurd h hm, fun h => absurd h hn⟩
  rw [h6, h6']
  by_cases hm : 0 ≤ m
  · rw [if_pos hm, if_pos (hs.1 hm)]
  · rw [if_neg hm, if_neg (fun h => hm (hs.2 h))]

example : offsetStr (-90 * 60000000) = py"-01:30" := by decide
/-- One half second short of a minute west of UTC is shown as a whole minute. -/
example : offsetStr (-59500000) = py"-00:01" := by decide

/-! ### C10, C12 -/

theorem digit_ascii_uni {c : Char} (h : IsDigit c) : ∃ n, asciiDigit? c = some n ∧ uniDigit? c = some n ∧ n < 10 := by
  obtain ⟨n, hn, rfl⟩ := h
  exact ⟨n, asciiDigit_digitChar n hn, uniDigit_digitChar n hn, hn⟩

theorem pad2_two {n : Nat} (h : n < 100) :
    ∃ a b x y, pad2 n = [a, b] ∧ asciiDigit? a = some x ∧ asciiDigit? b = some y ∧ uniDigit? a = some x ∧
      uniDigit? b = some y ∧ n = x * 10 + y := by
  rw [pad2_digits h]
  exact ⟨_, _, n / 10, n % 10, rfl, asciiDigit_digitChar _ (by omega), asciiDigit_digitChar _ (by omega),
    uniDigit_digitChar _ (by omega), uniDigit_digitChar _ (by omega), by omega⟩

theorem offsetStr_text (n : Int) (h : -1440 < n ∧ n < 1440) : OffsetText (offsetStr (n * 60000000)) (some n) := by
  have hs : (n * 60000000 / 1000000).natAbs = n.natAbs * 60 := by
    rw [show n * 60000000 / 1000000 = n * 60 by omega]; omega
  obtain ⟨a, b, x, y, e1, ha, hb, _, _, hh⟩ := pad2_two (n := n.natAbs * 60 / 3600) (by omega)
  obtain ⟨c, d, z, w, e2, hc, hd, _, _, hm⟩ := pad2_two (n := n.natAbs * 60 % 3600 / 60) (by omega)
  have hval : ((x * 10 + y) * 60 + (z * 10 + w) : Nat) = n.natAbs := by omega
  simp only [offsetStr, hs, e1, e2]
  by_cases hn : 0 ≤ n
  · rw [if_pos (by omega)]
    have := OffsetText.plus [':'] (.inr rfl) ha hb hc hd
    rw [hval, show ((n.natAbs : Nat) : Int) = n by omega] at this
    exact this
  · rw [if_neg (by omega)]
    have := OffsetText.minus [':'] (.inr rfl) ha hb hc hd
    rw [hval, show -((n.natAbs : Nat) : Int) = n by omega] at this
    exact this

/-- C10: a real date from year 1000 on, without offset or with a whole-minute offset below 24 hours, is accepted and
written as text that reads back as the same value. -/
theorem C10_date_roundtrip (y m d : Nat) (o : Option Int) (hr : RealDate y m d) (hy : 1000 ≤ y)
    (ho : ∀ n, o = some n → -1440 < n ∧ n < 1440) :
    SType.date.accept (dateValue y m d o) = .ok (dateValue y m d o) ∧
    ∃ s, SType.date.xmlvalue (dateValue y m d o) = .ok (some s) ∧
      SType.date.pythonvalue (.str s) = .ok (dateValue y m d o) := by
  refine ⟨rfl, dateStr ⟨y, m, d⟩ ++ tzSuffix (o.map (fun n => ⟨n * 60000000⟩)), ?_, ?_⟩
  · simp [SType.xmlvalue, dateXml, dateValue, (valid_iff y m d).2 hr]
  · obtain ⟨yd, hyd, hyv⟩ := nat_digits y
    have hlen : 4 ≤ yd.length := by
      rw [← digits_length hyd]
      have : ¬ (natStr y).length ≤ 3 := by rw [natStr_length_le]; omega
      omega
    have hm : m < 100 := by
      rcases hr.2.2.2 with ⟨h, _⟩ | ⟨h, _⟩ | ⟨h, _⟩ <;> (try simp at h) <;> omega
    have hd : d < 100 := by
      rcases hr.2.2.2 with ⟨_, h⟩ | ⟨_, h⟩ | ⟨_, h⟩ <;> omega
    obtain ⟨a, b, x, z, e1, _, _, ha, hb, hmv⟩ := pad2_two hm
    obtain ⟨c, c', u, w, e2, _, _, hc, hc', hdv⟩ := pad2_two hd
    have hoff : OffsetText (tzSuffix (o.map (fun n => ⟨n * 60000000⟩))) o := by
      cases o with
      | none => exact .absent
      | some n => exact offsetStr_text n (ho n rfl)
    generalize tzSuffix (o.map (fun n => ⟨n * 60000000⟩)) = off at hoff ⊢
    have hsp : Spells (dateStr ⟨y, m, d⟩ ++ off) y m d off := by
      have := Spells.mk [] off [] (.inl rfl) hyd hlen ha hb hc hc' (.inl rfl)
      rw [hyv, ← hmv, ← hdv] at this
      simpa [dateStr, e1, e2] using this
    obtain ⟨t, ht⟩ := offsetText_tzForm hoff
    have hmd := (matchDate_iff _ y m d t).2 ⟨off, hsp, ht⟩
    have hnil : dateStr ⟨y, m, d⟩ ++ off ≠ py"nil" := by
      intro h
      rw [h] at hmd
      revert hmd; rw [show matchDate py"nil" = none by decide]; intro h; cases h
    simp only [SType.pythonvalue, datePy, if_neg hnil, hmd]
    rcases tzForm_cases ht with ⟨o', ho', htz⟩ | ⟨ho', _⟩
    · have hoo : o' = o := by
        cases ho' with
        | absent => cases hoff; rfl
        | zulu => cases hoff; rfl
        | plus colon hcol ha hb hc hd =>
          rcases hcol with rfl | rfl
          · generalize hs : '+' :: _ = str at hoff
            cases hoff with
            | absent => cases hs
            | zulu => cases hs
            | plus colon' hcol' ha' hb' hc' hd' =>
              rcases hcol' with rfl | rfl
              · simp at hs
                obtain ⟨rfl, rfl, rfl, rfl⟩ := hs
                simp_all
              · simp at hs
            | minus => simp at hs
          · generalize hs : '+' :: _ = str at hoff
            cases hoff with
            | absent => cases hs
            | zulu => cases hs
            | plus colon' hcol' ha' hb' hc' hd' =>
              rcases hcol' with rfl | rfl
              · simp at hs
              · simp at hs
                obtain ⟨rfl, rfl, rfl, rfl⟩ := hs
                simp_all
            | minus => simp at hs
        | minus colon hcol ha hb hc hd =>
          rcases hcol with rfl | rfl
          · generalize hs : '-' :: _ = str at hoff
            cases hoff with
            | absent => cases hs
            | zulu => cases hs
            | minus colon' hcol' ha' hb' hc' hd' =>
              rcases hcol' with rfl | rfl
              · simp at hs
                obtain ⟨rfl, rfl, rfl, rfl⟩ := hs
                simp_all
              · simp at hs
            | plus => simp at hs
          · generalize hs : '-' :: _ = str at hoff
            cases hoff with
            | absent => cases hs
            | zulu => cases hs
            | minus colon' hcol' ha' hb' hc' hd' =>
              rcases hcol' with rfl | rfl
              · simp at hs
              · simp at hs
                obtain ⟨rfl, rfl, rfl, rfl⟩ := hs
                simp_all
            | plus => simp at hs
      subst hoo
      rw [htz]
      rw [offsetResult_ok o' ho, bind_ok]
      rcases mkXSDDate_eq y m d (o'.map (fun n => (⟨n * 60000000⟩ : Tz))) with ⟨_, he⟩ | ⟨hn, _⟩
      · exact he
      · exact absurd hr hn
    · exfalso
      cases ho' with
      | @mk s a b h1 h2 colon hs hcol ha hb =>
        generalize hstr : s :: a :: b :: colon = str at hoff
        rcases hcol with rfl | rfl
        · cases hoff with
          | absent => cases hstr
          | zulu => simp at hstr
          | plus colon' hcol' ha' hb' hc' hd' => rcases hcol' with rfl | rfl <;> simp at hstr
          | minus colon' hcol' ha' hb' hc' hd' => rcases hcol' with rfl | rfl <;> simp at hstr
        · cases hoff with
          | absent => cases hstr
          | zulu => simp at hstr
          | plus colon' hcol' ha' hb' hc' hd' => rcases hcol' with rfl | rfl <;> simp at hstr
          | minus colon' hcol' ha' hb' hc' hd' => rcases hcol' with rfl | rfl <;> simp at hstr

example : RealDate 2000 2 29 ∧ SType.date.xmlvalue (dateValue 2000 2 29 (some (-330))) = .ok (some py"2000-02-29-05:30") := by
  constructor
  · rw [← valid_iff]; decide
  · decide

/-- C12: a real date before year 1000 is accepted and written, but its text is refused by the same type. -/
theorem C12_early_years (y m d : Nat) (o : Option Int) (hr : RealDate y m d) (hy : y < 1000) :
    SType.date.accept (dateValue y m d o) = .ok (dateValue y m d o) ∧
    ∃ s, SType.date.xmlvalue (dateValue y m d o) = .ok (some s) ∧
      SType.date.pythonvalue (.str s) = .error .valueError := by
  refine ⟨rfl, dateStr ⟨y, m, d⟩ ++ tzSuffix (o.map (fun n => ⟨n * 60000000⟩)), ?_, ?_⟩
  · simp [SType.xmlvalue, dateXml, dateValue, (valid_iff y m d).2 hr]
  · generalize tzSuffix (o.map (fun n => ⟨n * 60000000⟩)) = off
    obtain ⟨yd, hyd, _⟩ := nat_digits y
    have hlen : yd.length ≤ 3 := by
      rw [← digits_length hyd, natStr_length_le]; omega
    have hhead := natStr_cons y
    obtain ⟨c, cs, hc, hdig⟩ := hhead
    have htd := takeDigits_digits hyd ('-' :: (pad2 m ++ '-' :: pad2 d) ++ off)
      (by intro x hx; simp at hx; subst hx; exact dash_not_digit)
    have hs : dateStr ⟨y, m, d⟩ ++ off = natStr y ++ ('-' :: (pad2 m ++ '-' :: pad2 d) ++ off) := by
      simp [dateStr]
    rw [hs]
    have hcd : c ≠ '-' := hdig.ne '-' (by decide)
    have hcn : c ≠ 'n' := hdig.ne 'n' (by decide)
    have hnil : natStr y ++ ('-' :: (pad2 m ++ '-' :: pad2 d) ++ off) ≠ py"nil" := by
      rw [hc]; intro h; injection h with h; exact hcn h
    simp only [SType.pythonvalue, datePy, if_neg hnil]
    have hmd : matchDate (natStr y ++ ('-' :: (pad2 m ++ '-' :: pad2 d) ++ off)) = none := by
      have hbody : dropMinus (natStr y ++ ('-' :: (pad2 m ++ '-' :: pad2 d) ++ off)) = natStr y ++ ('-' :: (pad2 m ++ '-' :: pad2 d) ++ off) := by
        rw [hc]
        simp only [List.cons_append, dropMinus]
        split
        · next he => injection he with he _; exact absurd he hcd
        · rfl
      unfold matchDate
      simp only [hbody, htd]
      rw [if_pos (by omega)]
    rw [hmd]

example : RealDate 33 4 3 ∧ SType.date.xmlvalue (dateValue 33 4 3 none) = .ok (some py"33-04-03") := by
  constructor
  · rw [← valid_iff]; decide
  · decide

end Soapfish
