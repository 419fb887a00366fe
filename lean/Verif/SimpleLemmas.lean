import Verif.Simple
import Verif.PyLemmas
import Verif.RegexLemmas
/-! Helper lemmas about simple types. -/
namespace Soapfish

/-! ### Comparisons of ints -/

theorem intDec_scaled (i : Int) : Dec.scaled ⟨decide (i < 0), i.natAbs, 0⟩ 0 = i := by
  simp only [Dec.scaled]
  by_cases h : i < 0
  · simp [h]; omega
  · simp [h]; omega

theorem intDec_lt (i j : Int) :
    Dec.lt ⟨decide (i < 0), i.natAbs, 0⟩ ⟨decide (j < 0), j.natAbs, 0⟩ = decide (i < j) := by
  simp only [Dec.lt]
  rw [show min (0 : Int) 0 = 0 by rfl, intDec_scaled, intDec_scaled]

theorem intDec_eqv (i j : Int) :
    Dec.eqv ⟨decide (i < 0), i.natAbs, 0⟩ ⟨decide (j < 0), j.natAbs, 0⟩ = decide (i = j) := by
  simp only [Dec.eqv]
  rw [show min (0 : Int) 0 = 0 by rfl, intDec_scaled, intDec_scaled]

theorem int_ltE (i j : Int) : Atom.ltE (.int i) (.int j) = .ok (decide (i < j)) := by
  simp [Atom.ltE, Atom.num?, Flt.lt, intDec_lt]

theorem int_leE (i j : Int) : Atom.leE (.int i) (.int j) = .ok (decide (i ≤ j)) := by
  simp only [Atom.leE, Atom.num?, Flt.le, Flt.lt, Flt.eqv, intDec_lt, intDec_eqv]
  congr 1
  rw [Bool.eq_iff_iff]
  simp only [Bool.or_eq_true, decide_eq_true_eq]
  omega

theorem int_eqv (i j : Int) : Atom.eqv (.int i) (.int j) = decide (i = j) := by
  simp [Atom.eqv, Atom.num?, Flt.eqv, intDec_eqv]

/-! ### Text of ints -/

theorem intStr_no_dot (i : Int) : hasChar '.' (intStr i) = false := by
  simp only [hasChar]
  rw [← Bool.not_eq_true, List.contains_iff_mem]
  intro h
  cases i with
  | ofNat n => exact (natStr_digits n _ h).ne '.' (by decide) rfl
  | negSucc n =>
    simp only [intStr, List.mem_cons] at h
    rcases h with h | h
    · exact absurd h (by decide)
    · exact (natStr_digits _ _ h).ne '.' (by decide) rfl

theorem range_digit {c : Char} (h : IsDigit c) :
    (fun c : Char => ('0' : Char).toNat ≤ c.toNat && c.toNat ≤ ('9' : Char).toNat) c = true := by
  obtain ⟨n, hn, rfl⟩ := h
  exact digit_cases (P := fun n => (fun c : Char => ('0' : Char).toNat ≤ c.toNat &&
    c.toNat ≤ ('9' : Char).toNat) (digitChar n) = true) (by decide) n hn

theorem star_digits (s : Str) (h : ∀ c ∈ s, IsDigit c) : (Re.star (Re.range '0' '9')).Lang s := by
  induction s with
  | nil => exact .starNil
  | cons c cs ih =>
    exact Re.Lang.starCons (s := [c]) (.cls (range_digit (h c (by simp)))) (ih (fun c hc => h c (by simp [hc])))

theorem plus_digits (n : Nat) : (Re.plus (Re.range '0' '9')).Lang (natStr n) := by
  obtain ⟨c, cs, hc, hd⟩ := natStr_cons n
  rw [hc]
  exact Re.Lang.cat (s := [c]) (.cls (range_digit hd))
    (star_digits cs (fun c' hc' => natStr_digits n c' (by simp [hc, hc'])))

theorem intPattern_matches (i : Int) : intPattern.matches (intStr i) = true := by
  have : intPattern.last.Lang (intStr i) := by
    cases i with
    | ofNat n => exact Re.Lang.cat (s := []) (.altL .eps) (plus_digits n)
    | negSucc n => exact Re.Lang.cat (s := ['-']) (.altR (.cls (by decide))) (plus_digits _)
  simp only [Pattern.matches, Bool.or_eq_true]
  exact .inr ((Re.dollar_iff _ _).2 (.inl this))

/-- The number of decimal digits. -/
theorem natStr_length_le (n d : Nat) : (natStr n).length ≤ d ↔ 1 ≤ d ∧ n < 10 ^ d := by
  induction n using digits_induction generalizing d with
  | h0 n h =>
    rw [natStr_lt h]
    simp only [List.length_singleton]
    constructor
    · intro hd
      refine ⟨hd, ?_⟩
      calc n < 10 ^ 1 := by omega
        _ ≤ 10 ^ d := Nat.pow_le_pow_right (by omega) hd
    · exact fun h => h.1
  | h1 n h ih =>
    rw [natStr_ge h, List.length_append, List.length_singleton]
    cases d with
    | zero => simp
    | succ d =>
      rw [show (natStr (n / 10)).length + 1 ≤ d + 1 ↔ (natStr (n / 10)).length ≤ d by omega, ih, Nat.pow_succ]
      constructor
      · rintro ⟨h1, h2⟩; exact ⟨by omega, by omega⟩
      · rintro ⟨_, h2⟩
        refine ⟨?_, by omega⟩
        cases d with
        | zero => simp at h2; omega
        | succ d => omega

theorem intStr_length (i : Int) : (intStr i).length = (natStr i.natAbs).length + (if i < 0 then 1 else 0) := by
  cases i with
  | ofNat n => simp [intStr]
  | negSucc n => simp [intStr, Int.negSucc_lt_zero]

/-! ### Exceptions -/

@[simp] theorem raiseIf_true (e : Exn) : raiseIf true e = .error e := rfl
@[simp] theorem raiseIf_false (e : Exn) : raiseIf false e = .ok () := rfl

theorem bind_ok {α β : Type} (a : α) (f : α → Except Exn β) : (Except.ok a >>= f) = f a := rfl
theorem bind_error {α β : Type} (e : Exn) (f : α → Except Exn β) : (Except.error e >>= f) = .error e := rfl
theorem pure_ok {α : Type} (a : α) : (pure a : Except Exn α) = .ok a := rfl

/-- `do check; rest` where the check either passes or raises ValueError. -/
theorem guard_bind {β : Type} (P : Prop) [Decidable P] (f : Unit → Except Exn β) :
    ((if P then Except.ok () else .error .valueError) >>= f) = if P then f () else .error .valueError := by
  split <;> rfl

theorem raiseIf_eq (b : Bool) : raiseIf b .valueError = if b = false then Except.ok () else .error .valueError := by
  cases b <;> rfl

/-! ### Strip -/

theorem dropWhile_spec (p : Char → Bool) (s : Str) :
    ∃ l, s = l ++ s.dropWhile p ∧ (∀ c ∈ l, p c = true) ∧ (∀ c, (s.dropWhile p).head? = some c → p c = false) := by
  induction s with
  | nil => exact ⟨[], by simp, by simp, by simp⟩
  | cons c cs ih =>
    cases h : p c with
    | true =>
      obtain ⟨l, h1, h2, h3⟩ := ih
      refine ⟨c :: l, ?_, ?_, ?_⟩
      · simp [List.dropWhile, h]; exact h1
      · intro x hx
        simp only [List.mem_cons] at hx
        rcases hx with rfl | hx
        · exact h
        · exact h2 x hx
      · simpa [List.dropWhile, h] using h3
    | false =>
      exact ⟨[], by simp [List.dropWhile, h], by simp, by simp [List.dropWhile, h]⟩

theorem strip_spec (s : Str) :
    ∃ l r, s = l ++ strip s ++ r ∧ (∀ c ∈ l, isSpace c = true) ∧ (∀ c ∈ r, isSpace c = true) ∧
      (∀ c, (strip s).head? = some c → isSpace c = false) ∧
      (∀ c, (strip s).getLast? = some c → isSpace c = false) := by
  obtain ⟨l, h1, h2, h3⟩ := dropWhile_spec isSpace s
  obtain ⟨r, h4, h5, h6⟩ := dropWhile_spec isSpace (s.dropWhile isSpace).reverse
  have h4' : s.dropWhile isSpace = strip s ++ r.reverse := by
    have := congrArg List.reverse h4
    simpa [strip, lstrip] using this
  refine ⟨l, r.reverse, ?_, h2, ?_, ?_, ?_⟩
  · rw [List.append_assoc, ← h4']; exact h1
  · intro c hc; exact h5 c (by simpa using hc)
  · intro c hc
    apply h3 c
    rw [h4']
    cases hs : strip s with
    | nil => rw [hs] at hc; simp at hc
    | cons a as => rw [hs] at hc; simpa using hc
  · intro c hc
    apply h6 c
    simpa [strip, lstrip, List.getLast?_reverse] using hc

theorem dropWhile_all {p : Char → Bool} {l t : Str} (hl : ∀ c ∈ l, p c = true) :
    (l ++ t).dropWhile p = t.dropWhile p := by
  induction l with
  | nil => rfl
  | cons c cs ih =>
    simp only [List.cons_append, List.dropWhile, hl c (by simp)]
    exact ih (fun c hc => hl c (by simp [hc]))

theorem strip_unique {l t r : Str} (hl : ∀ c ∈ l, isSpace c = true) (hr : ∀ c ∈ r, isSpace c = true)
    (h1 : ∀ c, t.head? = some c → isSpace c = false) (h2 : ∀ c, t.getLast? = some c → isSpace c = false) :
    strip (l ++ t ++ r) = t := by
  unfold strip lstrip
  rw [List.append_assoc, dropWhile_all hl]
  cases t with
  | nil =>
    simp only [List.nil_append]
    have : r.dropWhile isSpace = [] := by
      have := dropWhile_all (t := []) hr
      simpa using this
    simp [this]
  | cons c cs =>
    have hc := h1 c rfl
    rw [List.cons_append, dropWhile_head_false hc, ← List.cons_append, List.reverse_append,
      dropWhile_all (by intro x hx; exact hr x (by simpa using hx))]
    have : ((c :: cs).reverse).dropWhile isSpace = (c :: cs).reverse := by
      cases hrev : (c :: cs).reverse with
      | nil => rfl
      | cons a as =>
        apply dropWhile_head_false
        apply h2 a
        have := congrArg List.head? hrev
        rw [List.head?_reverse] at this
        simpa using this
    rw [this, List.reverse_reverse]

end Soapfish
