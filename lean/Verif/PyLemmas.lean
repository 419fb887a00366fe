import Verif.Py
/-! Helper lemmas about the Python primitives of `Verif.Py`. -/
namespace Soapfish

theorem digit_cases {P : Nat → Prop} (h : ∀ i : Fin 10, P i.1) : ∀ n, n < 10 → P n :=
  fun n hn => h ⟨n, hn⟩

theorem uniDigit_digitChar : ∀ n, n < 10 → uniDigit? (digitChar n) = some n :=
  digit_cases (P := fun n => uniDigit? (digitChar n) = some n) (by decide)

theorem asciiDigit_digitChar : ∀ n, n < 10 → asciiDigit? (digitChar n) = some n :=
  digit_cases (P := fun n => asciiDigit? (digitChar n) = some n) (by decide)

theorem isSpace_digitChar : ∀ n, n < 10 → isSpace (digitChar n) = false :=
  digit_cases (P := fun n => isSpace (digitChar n) = false) (by decide)

theorem digitChar_ne_zero : ∀ n, n < 10 → n ≠ 0 → digitChar n ≠ '0' :=
  digit_cases (P := fun n => n ≠ 0 → digitChar n ≠ '0') (by decide)

theorem digitChar_inj : ∀ m, m < 10 → ∀ n, n < 10 → digitChar m = digitChar n → m = n := by
  have h : ∀ i j : Fin 10, digitChar i.1 = digitChar j.1 → i.1 = j.1 := by decide
  intro m hm n hn
  exact h ⟨m, hm⟩ ⟨n, hn⟩

/-- A character is an ASCII decimal digit. -/
def IsDigit (c : Char) : Prop := ∃ n, n < 10 ∧ c = digitChar n

theorem IsDigit.uni {c} (h : IsDigit c) : ∃ n, n < 10 ∧ c = digitChar n ∧ uniDigit? c = some n := by
  obtain ⟨n, hn, rfl⟩ := h
  exact ⟨n, hn, rfl, uniDigit_digitChar n hn⟩

theorem IsDigit.notSpace {c} (h : IsDigit c) : isSpace c = false := by
  obtain ⟨n, hn, rfl⟩ := h
  exact isSpace_digitChar n hn

theorem IsDigit.ne {c} (h : IsDigit c) (d : Char) (hd : ∀ i : Fin 10, digitChar i.1 ≠ d) : c ≠ d := by
  obtain ⟨n, hn, rfl⟩ := h
  exact hd ⟨n, hn⟩

theorem asciiDigit_isDigit {c d} (h : asciiDigit? c = some d) : d < 10 ∧ c = digitChar d := by
  unfold asciiDigit? at h
  split at h
  · next hc =>
    obtain ⟨h1, h2⟩ := hc
    simp only [Option.some.injEq] at h
    refine ⟨by omega, ?_⟩
    unfold digitChar
    have : 48 + d = c.toNat := by omega
    rw [show (0x30 + d) = c.toNat from this]
    exact (Char.ofNat_toNat c).symm
  · cases h

/-! ### natStr -/

theorem natStrAux_fuel : ∀ f n, n < f → ∀ g, n < g → natStrAux f n = natStrAux g n := by
  intro f
  induction f with
  | zero => intro n h; omega
  | succ f ih =>
    intro n h g hg
    cases g with
    | zero => omega
    | succ g =>
      simp only [natStrAux]
      split
      · rfl
      · rw [ih (n / 10) (by omega) g (by omega)]

theorem natStr_lt {n} (h : n < 10) : natStr n = [digitChar n] := by
  simp [natStr, natStrAux, h]

theorem natStr_ge {n} (h : 10 ≤ n) : natStr n = natStr (n / 10) ++ [digitChar (n % 10)] := by
  have h' : ¬ n < 10 := by omega
  simp only [natStr]
  rw [natStrAux, if_neg h', natStrAux_fuel n (n / 10) (by omega) (n / 10 + 1) (by omega)]

/-- Induction principle following the decimal digits of a number. -/
theorem digits_induction {P : Nat → Prop} (h0 : ∀ n, n < 10 → P n)
    (h1 : ∀ n, 10 ≤ n → P (n / 10) → P n) : ∀ n, P n := by
  intro n
  induction n using Nat.strongRecOn with
  | _ n ih =>
    by_cases h : n < 10
    · exact h0 n h
    · exact h1 n (by omega) (ih (n / 10) (by omega))

theorem natStr_digits (n : Nat) : ∀ c ∈ natStr n, IsDigit c := by
  induction n using digits_induction with
  | h0 n h => rw [natStr_lt h]; intro c hc; simp at hc; exact ⟨n, h, hc⟩
  | h1 n h ih =>
    rw [natStr_ge h]
    intro c hc
    rw [List.mem_append] at hc
    rcases hc with hc | hc
    · exact ih c hc
    · simp at hc; exact ⟨n % 10, by omega, hc⟩

theorem natStr_ne_nil (n : Nat) : natStr n ≠ [] := by
  by_cases h : n < 10
  · rw [natStr_lt h]; simp
  · rw [natStr_ge (by omega)]; simp

/-- The value of a digit string, most significant digit first. -/
def digitsVal (acc : Nat) : List Nat → Nat
  | [] => acc
  | d :: ds => digitsVal (acc * 10 + d) ds

theorem readDigits_digit (acc : Nat) (c : Char) (cs : Str) (h : IsDigit c) :
    ∃ d, d < 10 ∧ c = digitChar d ∧ readDigits acc (c :: cs) = readDigits (acc * 10 + d) cs := by
  obtain ⟨d, hd, hc, hu⟩ := h.uni
  refine ⟨d, hd, hc, ?_⟩
  have hne : c ≠ '_' := h.ne '_' (by decide)
  rw [readDigits.eq_def]
  split
  · next heq => cases heq
  · next heq => injection heq with h1 _; exact absurd h1 hne
  · next heq =>
    injection heq with h1 h2
    subst h1; subst h2
    simp [hu]

theorem readDigits_append (acc : Nat) (s : Str) (n : Nat) (hn : n < 10)
    (hs : ∀ c ∈ s, IsDigit c) :
    readDigits acc (s ++ [digitChar n]) = (readDigits acc s).map (fun v => v * 10 + n) := by
  induction s generalizing acc with
  | nil =>
    obtain ⟨d, hd, hc, hr⟩ := readDigits_digit acc (digitChar n) [] ⟨n, hn, rfl⟩
    have : n = d := digitChar_inj n hn d hd hc
    subst this
    simp [hr, readDigits]
  | cons c cs ih =>
    obtain ⟨d, hd, hc, hr⟩ := readDigits_digit acc c (cs ++ [digitChar n]) (hs c (by simp))
    obtain ⟨d', hd', hc', hr'⟩ := readDigits_digit acc c cs (hs c (by simp))
    have : d = d' := digitChar_inj d hd d' hd' (hc ▸ hc')
    subst this
    rw [List.cons_append, hr, hr', ih _ (fun c h => hs c (by simp [h]))]

theorem readNat_append (s : Str) (n : Nat) (hn : n < 10) (hs : ∀ c ∈ s, IsDigit c) (hne : s ≠ []) :
    readNat (s ++ [digitChar n]) = (readNat s).map (fun v => v * 10 + n) := by
  cases s with
  | nil => exact absurd rfl hne
  | cons c cs =>
    obtain ⟨d, hd, hc, hu⟩ := (hs c (by simp)).uni
    simp only [List.cons_append, readNat, hu]
    exact readDigits_append d cs n hn (fun c h => hs c (by simp [h]))

theorem readNat_natStr (n : Nat) : readNat (natStr n) = some n := by
  induction n using digits_induction with
  | h0 n h => rw [natStr_lt h]; simp [readNat, uniDigit_digitChar n h, readDigits]
  | h1 n h ih =>
    rw [natStr_ge h, readNat_append _ _ (by omega) (natStr_digits _) (natStr_ne_nil _), ih]
    simp only [Option.map_some, Option.some.injEq]
    omega

theorem natStr_inj {m n : Nat} (h : natStr m = natStr n) : m = n := by
  have := readNat_natStr m
  rw [h, readNat_natStr] at this
  exact (Option.some.inj this).symm

/-- No leading zeros (except the text "0"). -/
theorem natStr_head (n : Nat) : n ≠ 0 → (natStr n).head? ≠ some '0' := by
  induction n using digits_induction with
  | h0 n h => intro hn; rw [natStr_lt h]; simpa using digitChar_ne_zero n h hn
  | h1 n h ih =>
    intro hn
    rw [natStr_ge h]
    have := ih (by omega)
    cases hs : natStr (n / 10) with
    | nil => exact absurd hs (natStr_ne_nil _)
    | cons c cs => rw [hs] at this; simpa using this

/-! ### strip -/

theorem dropWhile_head_false {p : Char → Bool} {c : Char} {cs : Str} (h : p c = false) :
    (c :: cs).dropWhile p = c :: cs := by simp [List.dropWhile, h]

theorem dropWhile_none {p : Char → Bool} {s : Str} (h : ∀ c ∈ s, p c = false) : s.dropWhile p = s := by
  cases s with
  | nil => rfl
  | cons c cs => exact dropWhile_head_false (h c (by simp))

theorem strip_of_no_space {s : Str} (h : ∀ c ∈ s, isSpace c = false) : strip s = s := by
  unfold strip lstrip
  rw [dropWhile_none h, dropWhile_none (by intro c hc; exact h c (by simpa using hc)), List.reverse_reverse]

/-! ### Integers -/

theorem intStr_noSpace (i : Int) : ∀ c ∈ intStr i, isSpace c = false := by
  cases i with
  | ofNat n => intro c hc; exact (natStr_digits n c hc).notSpace
  | negSucc n =>
    intro c hc
    simp only [intStr, List.mem_cons] at hc
    rcases hc with rfl | hc
    · decide
    · exact (natStr_digits _ c hc).notSpace

theorem natStr_cons (n : Nat) : ∃ c cs, natStr n = c :: cs ∧ IsDigit c := by
  cases h : natStr n with
  | nil => exact absurd h (natStr_ne_nil n)
  | cons c cs => exact ⟨c, cs, rfl, natStr_digits n c (by simp [h])⟩

theorem pyInt_intStr (i : Int) : pyInt (intStr i) = .ok i := by
  unfold pyInt
  rw [strip_of_no_space (intStr_noSpace i)]
  cases i with
  | ofNat n =>
    obtain ⟨c, cs, hc, hd⟩ := natStr_cons n
    have h1 : c ≠ '-' := hd.ne '-' (by decide)
    have h2 : c ≠ '+' := hd.ne '+' (by decide)
    have hr := readNat_natStr n
    simp only [intStr]
    rw [hc] at hr ⊢
    split
    · next h => injection h with h _; exact absurd h h1
    · next h => injection h with h _; exact absurd h h2
    · rw [hr]; rfl
  | negSucc n =>
    simp only [intStr, readNat_natStr]
    rfl

theorem intStr_inj {i j : Int} (h : intStr i = intStr j) : i = j := by
  have hi := pyInt_intStr i
  rw [h, pyInt_intStr] at hi
  exact (Except.ok.inj hi).symm

theorem pad2_digits {n : Nat} (h : n < 100) : pad2 n = [digitChar (n / 10), digitChar (n % 10)] := by
  unfold pad2
  split
  · next h' =>
    rw [natStr_lt h', show n / 10 = 0 by omega, show n % 10 = n by omega]; rfl
  · next h' =>
    rw [natStr_ge (by omega), natStr_lt (show n / 10 < 10 by omega)]; rfl

/-! ### Dictionaries -/

theorem Dict.get_set_same {α} (d : Dict α) (k : Str) (v : α) : (d.set k v).get? k = some v := by
  induction d with
  | nil => simp [Dict.set, Dict.get?]
  | cons p r ih =>
    obtain ⟨k', v'⟩ := p
    simp only [Dict.set]
    split <;> simp_all [Dict.get?]

theorem Dict.get_set_other {α} (d : Dict α) (k k' : Str) (v : α) (h : k' ≠ k) :
    (d.set k v).get? k' = d.get? k' := by
  induction d with
  | nil => simp [Dict.set, Dict.get?, Ne.symm h]
  | cons p r ih =>
    obtain ⟨k0, v0⟩ := p
    simp only [Dict.set]
    split
    · next h0 => subst h0; simp [Dict.get?, Ne.symm h]
    · simp only [Dict.get?]; split <;> simp_all

theorem Dict.keys_set_mem {α} (d : Dict α) (k : Str) (v : α) (h : k ∈ d.keys) :
    (d.set k v).keys = d.keys := by
  induction d with
  | nil => simp [Dict.keys] at h
  | cons p r ih =>
    obtain ⟨k0, v0⟩ := p
    simp only [Dict.set]
    split
    · next h0 => simp [Dict.keys]
    · next h0 =>
      have : k ∈ Dict.keys r := by
        simp only [Dict.keys, List.map_cons, List.mem_cons] at h ⊢
        rcases h with h | h
        · exact absurd h.symm h0
        · exact h
      have := ih this
      simp only [Dict.keys, List.map_cons] at this ⊢
      rw [this]

theorem Dict.get_none_iff {α} (d : Dict α) (k : Str) : d.get? k = none ↔ k ∉ d.keys := by
  induction d with
  | nil => simp [Dict.get?, Dict.keys]
  | cons p r ih =>
    obtain ⟨k0, v0⟩ := p
    simp only [Dict.get?, Dict.keys, List.map_cons, List.mem_cons]
    split
    · next h => simp [h]
    · next h =>
      rw [ih]
      simp [Dict.keys, Ne.symm h]

theorem Dict.get_some_of_mem {α} (d : Dict α) (k : Str) (h : k ∈ d.keys) : ∃ v, d.get? k = some v := by
  cases hg : d.get? k with
  | none => exact absurd h ((Dict.get_none_iff d k).1 hg)
  | some v => exact ⟨v, rfl⟩

end Soapfish
