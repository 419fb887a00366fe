import Verif.Spec.Numbers
import Verif.Props.Strings
import Verif.Props.Dates
import Verif.Props.Integers
import Mathlib.Tactic.Ring
import Mathlib.Tactic.Positivity
import Mathlib.Tactic.NormNum
/-!
Properties of Decimal (Double, Float) and MaxOccurs: C15 - C17.
-/
namespace Soapfish
open Spec

/-! ### Comparison of decimals is comparison of the numbers they denote -/

theorem scaled_val (d : Dec) (e : Int) (h : e ≤ d.exp) : ((d.scaled e : Int) : ℚ) = decVal d * (10 : ℚ) ^ (-e) := by
  have h10 : (10 : ℚ) ≠ 0 := by norm_num
  have hp : ((10 : ℚ) ^ (d.exp - e).toNat) = (10 : ℚ) ^ d.exp * (10 : ℚ) ^ (-e) := by
    rw [← zpow_natCast, ← zpow_add₀ h10, Int.toNat_of_nonneg (by omega)]; rfl
  unfold Dec.scaled decVal
  cases d.neg
  · simp only [Bool.false_eq_true, if_false]
    push_cast
    rw [hp]; ring
  · simp only [if_true]
    push_cast
    rw [hp]; ring

theorem dec_lt_iff (a b : Dec) : a.lt b = true ↔ decVal a < decVal b := by
  have hpos : (0 : ℚ) < (10 : ℚ) ^ (-(min a.exp b.exp)) := by positivity
  simp only [Dec.lt, decide_eq_true_eq]
  rw [← Int.cast_lt (R := ℚ), scaled_val a _ (by omega), scaled_val b _ (by omega), mul_lt_mul_iff_left₀ hpos]

theorem dec_eqv_iff (a b : Dec) : a.eqv b = true ↔ decVal a = decVal b := by
  have hpos : (10 : ℚ) ^ (-(min a.exp b.exp)) ≠ 0 := by positivity
  simp only [Dec.eqv, decide_eq_true_eq]
  rw [← Int.cast_inj (α := ℚ), scaled_val a _ (by omega), scaled_val b _ (by omega), mul_left_inj' hpos]

theorem numVal_num {a : Atom} {x : ℚ} (h : numVal a = some x) : ∃ d, a.num? = some (.fin d) ∧ decVal d = x := by
  cases a with
  | bool b => cases b <;> simp [numVal] at h <;> refine ⟨_, rfl, ?_⟩ <;> simp [decVal, ← h]
  | int i =>
    simp [numVal] at h
    refine ⟨_, rfl, ?_⟩
    subst h
    by_cases hi : i < 0
    · simp only [decVal, hi, decide_true, if_true, zpow_zero, mul_one]
      have : ((i.natAbs : ℤ) : ℚ) = -(i : ℚ) := by
        rw [show (i.natAbs : ℤ) = -i by omega]; push_cast; rfl
      have h2 : (i.natAbs : ℚ) = ((i.natAbs : ℤ) : ℚ) := (Int.cast_natCast _).symm
      rw [h2, this]; ring
    · simp only [decVal, hi, decide_false, Bool.false_eq_true, if_false, zpow_zero, mul_one, one_mul]
      have h2 : (i.natAbs : ℚ) = ((i.natAbs : ℤ) : ℚ) := (Int.cast_natCast _).symm
      rw [h2, show (i.natAbs : ℤ) = i by omega]
  | float f =>
    cases f with
    | fin d => simp [numVal] at h; exact ⟨d, rfl, h⟩
    | inf b => simp [numVal] at h
    | nan => simp [numVal] at h
  | decimal d => simp [numVal] at h; exact ⟨d, rfl, h⟩
  | none => simp [numVal] at h
  | unbounded => simp [numVal] at h
  | str s => simp [numVal] at h
  | xsdDate d tz => simp [numVal] at h
  | date d => simp [numVal] at h
  | datetime d t tz => simp [numVal] at h
  | time t tz => simp [numVal] at h
  | other n => simp [numVal] at h

theorem num_ltE {a b : Atom} {x y : ℚ} (ha : numVal a = some x) (hb : numVal b = some y) :
    a.ltE b = .ok (decide (x < y)) := by
  obtain ⟨d, h1, rfl⟩ := numVal_num ha
  obtain ⟨e, h2, rfl⟩ := numVal_num hb
  simp only [Atom.ltE, h1, h2, Flt.lt]
  congr 1
  rw [Bool.eq_iff_iff, dec_lt_iff]; simp

theorem num_leE {a b : Atom} {x y : ℚ} (ha : numVal a = some x) (hb : numVal b = some y) :
    a.leE b = .ok (decide (x ≤ y)) := by
  obtain ⟨d, h1, rfl⟩ := numVal_num ha
  obtain ⟨e, h2, rfl⟩ := numVal_num hb
  simp only [Atom.leE, h1, h2, Flt.le, Flt.lt, Flt.eqv]
  congr 1
  rw [Bool.eq_iff_iff, Bool.or_eq_true, dec_lt_iff, dec_eqv_iff, decide_eq_true_eq, le_iff_lt_or_eq]

theorem num_eqv {a b : Atom} {x y : ℚ} (ha : numVal a = some x) (hb : numVal b = some y) :
    a.eqv b = true ↔ x = y := by
  obtain ⟨d, h1, rfl⟩ := numVal_num ha
  obtain ⟨e, h2, rfl⟩ := numVal_num hb
  simp only [Atom.eqv, h1, h2, Flt.eqv, dec_eqv_iff]

/-! ### C15 -/

/-- A check passes when `P` holds and raises ValueError otherwise. -/
def Decides (x : Except Exn Unit) (P : Prop) : Prop := x = .ok () ∧ P ∨ x = .error .valueError ∧ ¬ P

theorem splitOn_notMem (c : Char) (s : Str) (h : c ∉ s) : splitOn c s = [s] := by
  induction s with
  | nil => rfl
  | cons d ds ih =>
    simp only [List.mem_cons, not_or] at h
    simp [splitOn, Ne.symm h.1, ih h.2]

theorem splitOn_cons (c : Char) (a r : Str) (h : c ∉ a) : splitOn c (a ++ c :: r) = a :: splitOn c r := by
  induction a with
  | nil => simp [splitOn]
  | cons d ds ih =>
    simp only [List.mem_cons, not_or] at h
    simp [splitOn, Ne.symm h.1, ih h.2]

theorem exists_first (c : Char) (s : Str) (h : c ∈ s) : ∃ a r, s = a ++ c :: r ∧ c ∉ a := by
  induction s with
  | nil => simp at h
  | cons d ds ih =>
    by_cases hd : d = c
    · exact ⟨[], ds, by simp [hd], by simp⟩
    · simp only [List.mem_cons] at h
      obtain ⟨a, r, h1, h2⟩ := ih (by rcases h with h | h; exact absurd h.symm hd; exact h)
      exact ⟨d :: a, r, by simp [h1], by simp [h2, Ne.symm hd]⟩

theorem hasChar_iff (c : Char) (s : Str) : hasChar c s = true ↔ c ∈ s := by
  simp [hasChar]

theorem checkFraction_decides (o : Option Int) (s : Str) : Decides (checkFraction o s) (FractionOk s o) := by
  cases o with
  | none => exact .inl ⟨rfl, trivial⟩
  | some n =>
    by_cases hn : n = 0
    · simp only [checkFraction, FractionOk, if_pos hn, Decides]
      by_cases hd : '.' ∈ s
      · right; exact ⟨by rw [(hasChar_iff '.' s).2 hd]; rfl, by simpa using hd⟩
      · left
        have : hasChar '.' s = false := by rw [← Bool.not_eq_true, hasChar_iff]; exact hd
        exact ⟨by rw [this]; rfl, hd⟩
    · simp only [checkFraction, FractionOk, if_neg hn, Decides]
      by_cases hd : '.' ∈ s
      · rw [(hasChar_iff '.' s).2 hd]
        simp only [Bool.not_true, Bool.false_eq_true, if_false]
        obtain ⟨a, t, rfl, ha⟩ := exists_first '.' s hd
        rw [splitOn_cons '.' a t ha]
        obtain ⟨b, r, rfl, hb, hr, hs⟩ : ∃ b r, t = b ++ r ∧ '.' ∉ b ∧ (r = [] ∨ r.head? = some '.') ∧
            (splitOn '.' t).head? = some b := by
          by_cases ht : '.' ∈ t
          · obtain ⟨b, r, rfl, hb⟩ := exists_first '.' t ht
            exact ⟨b, '.' :: r, rfl, hb, .inr rfl, by rw [splitOn_cons '.' b r hb]; rfl⟩
          · exact ⟨t, [], by simp, ht, .inl rfl, by rw [splitOn_notMem '.' t ht]; rfl⟩
        have hget : (a :: splitOn '.' (b ++ r))[1]?.getD [] = b := by
          cases hsp : splitOn '.' (b ++ r) with
          | nil => rw [hsp] at hs; cases hs
          | cons w ws => rw [hsp] at hs; simp at hs; simp [hs]
        rw [hget]
        by_cases hl : (b.length : Int) = n
        · left
          exact ⟨by simp [hl], a, b, r, rfl, ha, hb, hr, hl⟩
        · right
          have hne : ((b.length : Int) != n) = true := by simp [hl]
          refine ⟨by rw [hne]; rfl, ?_⟩
          rintro ⟨a', b', r', he, ha', hb', hr', hl'⟩
          have h1 := splitOn_cons '.' a (b ++ r) ha
          have h2 := splitOn_cons '.' a' (b' ++ r') ha'
          rw [he, h2] at h1
          injection h1 with h1 h3
          have hb'' : (splitOn '.' (b' ++ r')).head? = some b' := by
            rcases hr' with rfl | hr'
            · rw [List.append_nil, splitOn_notMem '.' b' hb']; rfl
            · cases r' with
              | nil => simp at hr'
              | cons x xs => simp at hr'; subst hr'; rw [splitOn_cons '.' b' xs hb']; rfl
          rw [h3, hs] at hb''
          injection hb'' with hb''
          rw [hb''] at hl; exact hl hl'
      · have : hasChar '.' s = false := by rw [← Bool.not_eq_true, hasChar_iff]; exact hd
        rw [this]
        right
        refine ⟨rfl, ?_⟩
        rintro ⟨a, b, r, rfl, _⟩
        exact hd (by simp)

theorem checkBound_decides (R : ℚ → ℚ → Prop) [DecidableRel R] (bad : Atom → Except Exn Bool) (x : ℚ) (o : Option Atom)
    (hb : ∀ b, o = some b → ∃ y, numVal b = some y)
    (h : ∀ b y, numVal b = some y → bad b = .ok (decide (¬ R x y))) :
    Decides (checkBound bad o) (Bound R x o) := by
  cases o with
  | none => exact .inl ⟨rfl, trivial⟩
  | some b =>
    obtain ⟨y, hy⟩ := hb b rfl
    simp only [Decides, checkBound, Bound, h b y hy, bind_ok]
    by_cases hr : R x y
    · left; exact ⟨by simp [hr], y, hy, hr⟩
    · right
      refine ⟨by simp [hr], ?_⟩
      rintro ⟨y', hy', hr'⟩
      rw [hy] at hy'; injection hy' with hy'; subst hy'; exact hr hr'

theorem check_decides (f : NumFacets) (hf : FiniteFacets f) (v : Atom) (x : ℚ) (hv : numVal v = some x) :
    Decides (checkRestrictions f v) (NumOk f x v.toStr) := by
  have he : Decides (ifGiven f.enumeration (fun l => raiseIf (!l.any (fun y => v.eqv y)) .valueError))
      (∀ l, f.enumeration = some l → ∃ b ∈ l, numVal b = some x) := by
    cases hl : f.enumeration with
    | none => exact .inl ⟨rfl, by simp⟩
    | some l =>
      have hfin := hf.enumeration l hl
      by_cases hany : l.any (fun y => v.eqv y) = true
      · left
        refine ⟨by simp [ifGiven, hany], ?_⟩
        intro l' hl'; injection hl' with hl'; subst hl'
        obtain ⟨b, hb, hb'⟩ := List.any_eq_true.1 hany
        obtain ⟨y, hy⟩ := hfin b hb
        rw [num_eqv hv hy] at hb'
        exact ⟨b, hb, by rw [hy, hb']⟩
      · right
        refine ⟨by simp [ifGiven, hany], ?_⟩
        intro hall
        obtain ⟨b, hb, hb'⟩ := hall l rfl
        exact hany (List.any_eq_true.2 ⟨b, hb, (num_eqv hv hb').2 rfl⟩)
  have h1 := checkFraction_decides f.fractionDigits v.toStr
  have h2 := checkBound_decides (· < ·) (fun b => b.leE v) x f.maxExclusive hf.maxExclusive
    (by intro b y hy; rw [num_leE hy hv]; simp)
  have h3 := checkBound_decides (· ≤ ·) (fun b => b.ltE v) x f.maxInclusive hf.maxInclusive
    (by intro b y hy; rw [num_ltE hy hv]; simp)
  have h4 := checkBound_decides (· > ·) (fun b => v.leE b) x f.minExclusive hf.minExclusive
    (by intro b y hy; rw [num_leE hv hy]; simp)
  have h5 := checkBound_decides (· ≥ ·) (fun b => v.ltE b) x f.minInclusive hf.minInclusive
    (by intro b y hy; rw [num_ltE hv hy]; simp)
  have h6 : Decides (ifGiven f.pattern (fun p => raiseIf (!p.matches v.toStr) .valueError))
      (∀ p, f.pattern = some p → PatternAccepts p v.toStr) := by
    cases hp : f.pattern with
    | none => exact .inl ⟨rfl, by simp⟩
    | some p =>
      by_cases h : p.matches v.toStr = true
      · left
        refine ⟨by simp [ifGiven, h], ?_⟩
        intro q hq; injection hq with hq; subst hq; exact (patternAccepts_iff p _).1 h
      · right
        refine ⟨by simp [ifGiven, h], ?_⟩
        intro hall; exact h ((patternAccepts_iff p _).2 (hall p rfl))
  have h7 : Decides (ifGiven f.totalDigits (fun n =>
      raiseIf ((v.toStr.length : Int) - (if hasChar '.' v.toStr then 1 else 0) > n) .valueError))
      (TotalOk v.toStr f.totalDigits) := by
    cases f.totalDigits with
    | none => exact .inl ⟨rfl, trivial⟩
    | some n =>
      simp only [ifGiven, TotalOk, Decides, hasChar_iff, raiseIf_eq, decide_eq_false_iff_not]
      by_cases h : (v.toStr.length : Int) ≤ n + (if '.' ∈ v.toStr then 1 else 0)
      · left; exact ⟨by rw [if_pos (by omega)], h⟩
      · right; exact ⟨by rw [if_neg (by omega)], h⟩
  unfold checkRestrictions
  rcases he with ⟨e, pe⟩ | ⟨e, pe⟩
  swap
  · rw [e]; exact .inr ⟨rfl, fun h => pe h.enumeration⟩
  rw [e, bind_ok]
  rcases h1 with ⟨e, p1⟩ | ⟨e, p1⟩
  swap
  · rw [e]; exact .inr ⟨rfl, fun h => p1 h.fraction⟩
  rw [e, bind_ok]
  rcases h2 with ⟨e, p2⟩ | ⟨e, p2⟩
  swap
  · rw [e]; exact .inr ⟨rfl, fun h => p2 h.maxExclusive⟩
  rw [e, bind_ok]
  rcases h3 with ⟨e, p3⟩ | ⟨e, p3⟩
  swap
  · rw [e]; exact .inr ⟨rfl, fun h => p3 h.maxInclusive⟩
  rw [e, bind_ok]
  rcases h4 with ⟨e, p4⟩ | ⟨e, p4⟩
  swap
  · rw [e]; exact .inr ⟨rfl, fun h => p4 h.minExclusive⟩
  rw [e, bind_ok]
  rcases h5 with ⟨e, p5⟩ | ⟨e, p5⟩
  swap
  · rw [e]; exact .inr ⟨rfl, fun h => p5 h.minInclusive⟩
  rw [e, bind_ok]
  rcases h6 with ⟨e, p6⟩ | ⟨e, p6⟩
  swap
  · rw [e]; exact .inr ⟨rfl, fun h => p6 h.pattern⟩
  rw [e, bind_ok]
  rcases h7 with ⟨e, p7⟩ | ⟨e, p7⟩
  swap
  · rw [e]; exact .inr ⟨rfl, fun h => p7 h.total⟩
  rw [e]
  exact .inl ⟨rfl, ⟨pe, p1, p2, p3, p4, p5, p6, p7⟩⟩

/-- C15: an int or finite float is accepted, unchanged, exactly when the number and its text satisfy every facet;
otherwise ValueError. -/
theorem C15_decimal_facets (f : NumFacets) (hf : FiniteFacets f) (v : Atom) (x : ℚ) (hv : numVal v = some x)
    (hd : ∀ d, v ≠ .decimal d) :
    (NumOk f x v.toStr ∧ (SType.decimal f).accept v = .ok v) ∨
    (¬ NumOk f x v.toStr ∧ (SType.decimal f).accept v = .error .valueError) := by
  have hacc : (SType.decimal f).accept v = (checkRestrictions f v >>= fun _ => .ok v) := by
    cases v <;> simp [numVal] at hv <;> first | rfl | exact absurd rfl (hd _)
  rw [hacc]
  rcases check_decides f hf v x hv with ⟨e, p⟩ | ⟨e, p⟩
  · rw [e]; exact .inl ⟨p, rfl⟩
  · rw [e]; exact .inr ⟨p, rfl⟩

/-- C15: NaN passes every bound: only enumeration, digits and pattern facets can reject it. -/
theorem C15_nan_passes_bounds (a b c d : Option Atom)
    (hfin : ∀ o ∈ [a, b, c, d], ∀ z, o = some z → ∃ y, numVal z = some y) :
    (SType.decimal { maxExclusive := a, maxInclusive := b, minExclusive := c, minInclusive := d }).accept (.float .nan)
      = .ok (.float .nan) := by
  have key : ∀ o : Option Atom, (∀ z, o = some z → ∃ y, numVal z = some y) →
      checkBound (fun b => b.leE (.float .nan)) o = .ok () ∧ checkBound (fun b => b.ltE (.float .nan)) o = .ok () ∧
      checkBound (fun b => (Atom.float .nan).leE b) o = .ok () ∧
      checkBound (fun b => (Atom.float .nan).ltE b) o = .ok () := by
    intro o ho
    cases o with
    | none => exact ⟨rfl, rfl, rfl, rfl⟩
    | some z =>
      obtain ⟨y, hy⟩ := ho z rfl
      obtain ⟨e, he, _⟩ := numVal_num hy
      have hn : (Atom.float .nan).num? = some .nan := rfl
      refine ⟨?_, ?_, ?_, ?_⟩ <;>
        simp [checkBound, Atom.leE, Atom.ltE, he, hn, Flt.le, Flt.lt, Flt.eqv, bind_ok]
  simp only [SType.accept, decimalAccept, checkRestrictions, ifGiven, checkFraction, bind_ok,
    (key a (hfin a (by simp))).1, (key b (hfin b (by simp))).2.1, (key c (hfin c (by simp))).2.2.1,
    (key d (hfin d (by simp))).2.2.2]

example : NumOk { minInclusive := some (.float (.fin ⟨false, 15, -1⟩)), fractionDigits := some 2, totalDigits := some 3 }
    (9/4) (Atom.float (.fin ⟨false, 225, -2⟩)).toStr where
  enumeration := by simp
  fraction := ⟨py"2", py"25", [], by decide, by decide, by decide, .inl rfl, by decide⟩
  maxExclusive := trivial
  maxInclusive := trivial
  minExclusive := trivial
  minInclusive := ⟨3/2, by simp [numVal, decVal]; norm_num, by norm_num⟩
  pattern := by simp
  total := by simp only [TotalOk]; decide

/-! ### C16 -/

theorem foldl_digits (ds : List Nat) (a : Nat) :
    ds.foldl (fun a d => a * 10 + d) a = a * 10 ^ ds.length + digitsNat ds := by
  induction ds generalizing a with
  | nil => simp [digitsNat]
  | cons d ds ih =>
    simp only [List.foldl_cons, List.length_cons, digitsNat]
    rw [ih, ih]; ring

theorem digitsNat_append (a b : List Nat) : digitsNat (a ++ b) = digitsNat a * 10 ^ b.length + digitsNat b := by
  simp only [digitsNat, List.foldl_append]
  rw [foldl_digits]; rfl

theorem digits_append {s t : Str} {a b : List Nat} (h1 : Digits s a) (h2 : Digits t b) : Digits (s ++ t) (a ++ b) := by
  induction h1 with
  | nil => exact h2
  | cons hd _ ih => exact .cons hd ih

theorem digits_zeros (n : Nat) : Digits (zeros n) (List.replicate n 0) := by
  induction n with
  | zero => exact .nil
  | succ n ih => exact .cons (by decide) ih

theorem digitsNat_zeros (n : Nat) : digitsNat (List.replicate n 0) = 0 := by
  induction n with
  | zero => rfl
  | succ n ih =>
    simp only [digitsNat, List.replicate_succ, List.foldl_cons] at ih ⊢
    simpa using ih

theorem digits_split {s : Str} {ds : List Nat} (h : Digits s ds) (n : Nat) :
    Digits (s.take n) (ds.take n) ∧ Digits (s.drop n) (ds.drop n) := by
  induction h generalizing n with
  | nil => simp; exact .nil
  | cons hd ht ih =>
    cases n with
    | zero => simp; exact ⟨.nil, .cons hd ht⟩
    | succ n => simp; exact ⟨.cons hd (ih n).1, (ih n).2⟩

/-- Normalising `c * 10^k` with `c` not divisible by ten. -/
theorem normAux_mul (c k f : Nat) (e : Int) (hc : c % 10 ≠ 0) (hf : k ≤ f) :
    Dec.normAux f (c * 10 ^ k) e = (c, e + k) := by
  induction k generalizing f e with
  | zero =>
    cases f with
    | zero => simp [Dec.normAux]
    | succ f => simp [Dec.normAux, hc]
  | succ k ih =>
    cases f with
    | zero => omega
    | succ f =>
      have h0 : c * 10 ^ (k + 1) % 10 = 0 := by rw [Nat.pow_succ, ← Nat.mul_assoc]; simp
      have h1 : c * 10 ^ (k + 1) / 10 = c * 10 ^ k := by rw [Nat.pow_succ, ← Nat.mul_assoc]; simp
      rw [Dec.normAux, if_pos h0, h1, ih f (e + 1) (by omega)]
      congr 1; push_cast; omega

theorem norm_mul (neg : Bool) (c k : Nat) (e : Int) (hc : c % 10 ≠ 0) :
    Dec.norm ⟨neg, c * 10 ^ k, e⟩ = ⟨neg, c, e + k⟩ := by
  have hpos : c ≠ 0 := by rintro rfl; simp at hc
  have hne : c * 10 ^ k ≠ 0 := by positivity
  have hk : k ≤ c * 10 ^ k := by
    have h1 : k < 10 ^ k := Nat.lt_pow_self (by omega)
    have h2 : 1 * 10 ^ k ≤ c * 10 ^ k := Nat.mul_le_mul_right _ (by omega)
    omega
  simp only [Dec.norm, if_neg hne, normAux_mul c k _ e hc hk]

theorem dot_not_digit : uniDigit? '.' = none := by decide
theorem e_not_digit : uniDigit? 'e' = none := by decide

/-- Reading `digits.digits` followed by an exponent part. -/
theorem floatBody_point (neg : Bool) {i f : Str} {id fd : List Nat} (r : Str) (e : Int) (hi : Digits i id)
    (hf : Digits f fd) (hne : id ≠ []) (hr : ∀ c, r.head? = some c → uniDigit? c = none) (he : floatExp r = some e) :
    floatBody neg (i ++ '.' :: (f ++ r)) =
      some (Dec.norm ⟨neg, digitsNat id * 10 ^ fd.length + digitsNat fd, e - fd.length⟩) := by
  have h1 := takeDigits_digits hi ('.' :: (f ++ r)) (by intro c hc; simp at hc; subst hc; exact dot_not_digit)
  have h2 := takeDigits_digits hf r hr
  unfold floatBody
  simp only [h1, h2, he, digitsNat_append]
  cases id with
  | nil => exact absurd rfl hne
  | cons a as => simp

/-- Reading `digits` followed by an exponent part. -/
theorem floatBody_plain (neg : Bool) {i : Str} {id : List Nat} (r : Str) (e : Int) (hi : Digits i id)
    (hne : id ≠ []) (hr : ∀ c, r.head? = some c → uniDigit? c = none ∧ c ≠ '.') (he : floatExp r = some e) :
    floatBody neg (i ++ r) = some (Dec.norm ⟨neg, digitsNat id, e⟩) := by
  have h1 := takeDigits_digits hi r (fun c hc => (hr c hc).1)
  unfold floatBody
  simp only [h1]
  cases id with
  | nil => exact absurd rfl hne
  | cons a as =>
    cases r with
    | nil => simp only [he]; simp
    | cons c cs =>
      have hc := (hr c rfl).2
      split
      · next h => injection h with h _; exact absurd h hc
      · simp [he]

/-- The exponent part `e±dd`. -/
theorem floatExp_pad (e : Int) :
    floatExp ('e' :: ((if e < 0 then ['-'] else ['+']) ++ pad2 e.natAbs)) = some e := by
  obtain ⟨hl, _, ds, hd, hv⟩ := pad2_spec e.natAbs
  have htd := takeDigits_digits hd [] (by simp)
  rw [List.append_nil] at htd
  have hne : ds ≠ [] := by
    rintro rfl
    have := digits_length hd
    simp at this; rw [this] at hl; simp at hl
  cases ds with
  | nil => exact absurd rfl hne
  | cons a as =>
    by_cases h : e < 0
    · simp only [if_pos h, floatExp, splitSign, List.cons_append, List.nil_append, true_or, if_true, htd, hv]
      congr 1; omega
    · simp only [if_neg h, floatExp, splitSign, List.cons_append, List.nil_append, true_or, if_true, htd, hv]
      simp; omega

theorem dropUnderscores_none (s : Str) (h : '_' ∉ s) (b : Bool) : dropUnderscores b s = some s := by
  induction s generalizing b with
  | nil => rfl
  | cons c cs ih =>
    simp only [List.mem_cons, not_or] at h
    simp [dropUnderscores, Ne.symm h.1, ih h.2]

/-- Characters of the texts of floats. -/
def FloatChar (c : Char) : Prop := IsDigit c ∨ c = '.' ∨ c = 'e' ∨ c = '+' ∨ c = '-'

theorem FloatChar.props {c : Char} (h : FloatChar c) : isSpace c = false ∧ c ≠ '_' := by
  rcases h with h | rfl | rfl | rfl | rfl
  · exact ⟨h.notSpace, h.ne '_' (by decide)⟩
  all_goals decide

/-- `float()` of a sign and a text of float characters beginning with a digit. -/
theorem pyFloat_body (neg : Bool) (c : Char) (r : Str) (d : Dec) (hc : IsDigit c)
    (hr : ∀ x ∈ r, FloatChar x) (hb : floatBody neg (c :: r) = some d) :
    pyFloat ((if neg then ['-'] else []) ++ c :: r) = .ok (.fin d) := by
  have hall : ∀ x ∈ (if neg then ['-'] else []) ++ c :: r, FloatChar x := by
    intro x hx
    simp only [List.mem_append, List.mem_cons] at hx
    rcases hx with hx | rfl | hx
    · cases neg <;> simp at hx; subst hx; exact .inr (.inr (.inr (.inr rfl)))
    · exact .inl hc
    · exact hr x hx
  have hstrip := strip_of_no_space (fun x hx => (hall x hx).props.1)
  have hu : '_' ∉ c :: r := by
    intro h
    simp only [List.mem_cons] at h
    rcases h with h | h
    · exact hc.ne '_' (by decide) h.symm
    · exact (hr _ h).props.2 rfl
  have hl : ∀ n, n < 10 → lowerC (digitChar n) = digitChar n :=
    digit_cases (P := fun n => lowerC (digitChar n) = digitChar n) (by decide)
  have hlow : lower (c :: r) = c :: lower r := by
    obtain ⟨n, hn, rfl⟩ := hc
    simp [lower, hl n hn]
  have hci : c ≠ 'i' := hc.ne 'i' (by decide)
  have hcn : c ≠ 'n' := hc.ne 'n' (by decide)
  have hcm : c ≠ '-' := hc.ne '-' (by decide)
  have hcp : c ≠ '+' := hc.ne '+' (by decide)
  unfold pyFloat
  rw [hstrip]
  cases neg with
  | true =>
    simp only [if_true, List.cons_append, List.nil_append, splitSign, hlow, List.cons.injEq, hci, hcn, false_and, or_self,
      if_false, dropUnderscores_none _ hu, Option.bind_some, hb]
  | false =>
    simp only [Bool.false_eq_true, if_false, List.nil_append]
    have hm : splitSign (c :: r) = (false, c :: r) := by
      unfold splitSign
      split
      · next h => injection h with h _; exact absurd h hcm
      · next h => injection h with h _; exact absurd h hcp
      · rfl
    simp only [hm, hlow, List.cons.injEq, hci, hcn, false_and, or_self, if_false, dropUnderscores_none _ hu,
      Option.bind_some, hb]

theorem zeros_digit (n : Nat) : ∀ c ∈ zeros n, IsDigit c := by
  intro c hc
  simp only [zeros, List.mem_replicate] at hc
  exact ⟨0, by omega, by rw [hc.2]; decide⟩

theorem float_repr_roundtrip (d : Dec) (hd : d.Canonical) : pyFloat d.repr = .ok (.fin d) := by
  obtain ⟨neg, c, e⟩ := d
  unfold Dec.repr
  simp only
  by_cases hc : c = 0
  · subst hc
    simp [Dec.Canonical] at hd
    subst hd
    rw [if_pos rfl]
    exact pyFloat_body neg '0' py".0" _ ⟨0, by omega, by decide⟩
      (by intro x hx; simp at hx; rcases hx with rfl | rfl
          · exact .inr (.inl rfl)
          · exact .inl ⟨0, by omega, by decide⟩)
      (by cases neg <;> decide)
  · rw [if_neg hc]
    have hc10 : c % 10 ≠ 0 := by simpa [Dec.Canonical, hc] using hd
    obtain ⟨ds, hds, hval⟩ := nat_digits c
    have hdig := natStr_digits c
    have hlen := digits_length hds
    have hnorm : ∀ e', Dec.norm ⟨neg, c, e'⟩ = ⟨neg, c, e'⟩ := by
      intro e'
      have := norm_mul neg c 0 e' hc10
      simpa using this
    obtain ⟨a, as, hcons, ha⟩ := natStr_cons c
    have hdsne : ds ≠ [] := by
      rintro rfl; rw [hcons] at hlen; simp at hlen
    have hasd : ∀ x ∈ as, IsDigit x := fun x hx => hdig x (by rw [hcons]; simp [hx])
    generalize hs : natStr c = s at *
    split
    · next hfix =>
      split
      · next hle =>
        -- 0.000ddd
        have hb := floatBody_point neg (i := ['0']) (id := [0]) (f := zeros (-((s.length : Int) + e)).toNat ++ s)
          (fd := List.replicate (-((s.length : Int) + e)).toNat 0 ++ ds) [] 0 (.cons (by decide) .nil)
          (digits_append (digits_zeros _) hds) (by simp) (by simp) rfl
        rw [digitsNat_append, digitsNat_zeros, hval] at hb
        have hexp : (0 : Int) - ((List.replicate (-((s.length : Int) + e)).toNat 0 ++ ds).length : Nat) = e := by
          simp only [List.length_append, List.length_replicate]; omega
        have hco : digitsNat [0] * 10 ^ (List.replicate (-((s.length : Int) + e)).toNat 0 ++ ds).length +
            (0 * 10 ^ ds.length + c) = c := by simp [digitsNat]
        rw [hexp, hco, hnorm, List.append_nil] at hb
        have := pyFloat_body neg '0' ('.' :: (zeros (-((s.length : Int) + e)).toNat ++ s)) _ ⟨0, by omega, by decide⟩
          (by
            intro x hx
            simp only [List.mem_cons, List.mem_append] at hx
            rcases hx with rfl | hx | hx
            · exact .inr (.inl rfl)
            · exact .inl (zeros_digit _ x hx)
            · exact .inl (hdig x hx)) hb
        rw [← this]
        cases neg <;> simp
      · next hgt =>
        split
        · next hn =>
          -- ddd000.0
          have hb := floatBody_point neg (i := s ++ zeros ((s.length : Int) + e - s.length).toNat)
            (id := ds ++ List.replicate ((s.length : Int) + e - s.length).toNat 0) (f := ['0']) (fd := [0]) [] 0
            (digits_append hds (digits_zeros _)) (.cons (by decide) .nil) (by simp [hdsne]) (by simp) rfl
          rw [digitsNat_append, digitsNat_zeros, hval] at hb
          have hk : ((s.length : Int) + e - s.length).toNat = e.toNat := by congr 1; omega
          have hco : (c * 10 ^ (List.replicate ((s.length : Int) + e - s.length).toNat 0).length + 0) * 10 ^ [0].length +
              digitsNat [0] = c * 10 ^ (e.toNat + 1) := by
            rw [hk]; simp [digitsNat]; ring
          rw [hco, norm_mul neg c _ _ hc10] at hb
          have hexp : (0 : Int) - ([0] : List Nat).length + ((e.toNat + 1 : Nat) : Int) = e := by simp; omega
          rw [hexp, hcons] at hb
          have := pyFloat_body neg a (as ++ zeros ((s.length : Int) + e - s.length).toNat ++ py".0") _ ha
            (by
              intro x hx
              simp only [List.mem_cons, List.mem_append, List.not_mem_nil, or_false] at hx
              rcases hx with (hx | hx) | rfl | rfl
              · exact .inl (hasd x hx)
              · exact .inl (zeros_digit _ x hx)
              · exact .inr (.inl rfl)
              · exact .inl ⟨0, by omega, by decide⟩)
            (by rw [← hb, hcons]; simp)
          rw [← this, hcons]
          simp
        · next hn =>
          -- dd.dd
          obtain ⟨h1, h2⟩ := digits_split hds ((s.length : Int) + e).toNat
          have hi : ds.take ((s.length : Int) + e).toNat ≠ [] := by
            intro h
            rw [List.take_eq_nil_iff] at h
            rcases h with h | h
            · omega
            · exact hdsne h
          have hb := floatBody_point neg [] 0 h1 h2 hi (by simp) rfl
          have hco : digitsNat (ds.take ((s.length : Int) + e).toNat) * 10 ^ (ds.drop ((s.length : Int) + e).toNat).length +
              digitsNat (ds.drop ((s.length : Int) + e).toNat) = c := by
            rw [← digitsNat_append, List.take_append_drop, hval]
          have hexp : (0 : Int) - ((ds.drop ((s.length : Int) + e).toNat).length : Nat) = e := by
            rw [List.length_drop]; omega
          rw [hco, hexp, hnorm, List.append_nil] at hb
          have hk : ∃ k, ((s.length : Int) + e).toNat = k + 1 := ⟨((s.length : Int) + e).toNat - 1, by omega⟩
          obtain ⟨k, hk⟩ := hk
          have hmem : ∀ x ∈ as.take k ++ '.' :: as.drop k, FloatChar x := by
            intro x hx
            simp only [List.mem_append, List.mem_cons] at hx
            rcases hx with hx | rfl | hx
            · exact .inl (hasd x (List.mem_of_mem_take hx))
            · exact .inr (.inl rfl)
            · exact .inl (hasd x (List.mem_of_mem_drop hx))
          rw [hk, hcons] at hb
          simp only [List.take_succ_cons, List.drop_succ_cons, List.cons_append] at hb
          have := pyFloat_body neg a (as.take k ++ '.' :: as.drop k) _ ha hmem hb
          rw [← this, hk, hcons]
          simp
    · next hfix =>
      -- scientific
      have hexpf := floatExp_pad ((s.length : Int) + e - 1)
      have hExpChars : ∀ x ∈ ('e' :: ((if (s.length : Int) + e - 1 < 0 then ['-'] else ['+']) ++
          pad2 ((s.length : Int) + e - 1).natAbs)), FloatChar x := by
        intro x hx
        simp only [List.mem_cons, List.mem_append] at hx
        rcases hx with rfl | hx | hx
        · exact .inr (.inr (.inl rfl))
        · split at hx
          · simp at hx; exact .inr (.inr (.inr (.inr hx)))
          · simp at hx; exact .inr (.inr (.inr (.inl hx)))
        · exact .inl ((pad2_spec _).2.1 x hx)
      generalize hE : ('e' :: ((if (s.length : Int) + e - 1 < 0 then ['-'] else ['+']) ++
          pad2 ((s.length : Int) + e - 1).natAbs)) = E at hexpf hExpChars
      have hEhead : E.head? = some 'e' := by rw [← hE]; rfl
      cases as with
      | nil =>
        rw [hcons] at hds hlen hE hexpf ⊢
        have hb := floatBody_plain neg E _ hds hdsne
          (by intro x hx; rw [hEhead] at hx; injection hx with hx; subst hx; decide) hexpf
        rw [hval, hnorm] at hb
        have hexp : (([a].length : Int) + e - 1) = e := by simp
        rw [hexp] at hb
        have := pyFloat_body neg a E _ ha hExpChars hb
        rw [← this, ← hE]
        simp
      | cons a2 as =>
        rw [hcons] at hds hlen hE hexpf ⊢
        cases hds with
        | @cons _ d1 _ ds' hd1 hds' =>
        have hb := floatBody_point neg E _ (.cons hd1 .nil) hds' (by simp)
          (by intro x hx; rw [hEhead] at hx; injection hx with hx; subst hx; decide) hexpf
        have hco : digitsNat [d1] * 10 ^ ds'.length + digitsNat ds' = c := by
          rw [← digitsNat_append]; exact hval
        have hexp : (((a :: a2 :: as).length : Int) + e - 1) - (ds'.length : Nat) = e := by
          rw [← digits_length hds']; simp; omega
        rw [hco, hexp, hnorm] at hb
        have hmem : ∀ x ∈ '.' :: (a2 :: as ++ E), FloatChar x := by
          intro x hx
          simp only [List.mem_cons, List.mem_append] at hx
          rcases hx with rfl | hx | hx
          · exact .inr (.inl rfl)
          · exact .inl (hasd x (by simpa using hx))
          · exact hExpChars x hx
        have := pyFloat_body neg a ('.' :: (a2 :: as ++ E)) _ ha hmem (by simpa using hb)
        rw [← this, ← hE]
        simp

theorem normAux_val (f c : Nat) (e : Int) :
    ((Dec.normAux f c e).1 : ℚ) * (10 : ℚ) ^ (Dec.normAux f c e).2 = (c : ℚ) * (10 : ℚ) ^ e := by
  induction f generalizing c e with
  | zero => rfl
  | succ f ih =>
    simp only [Dec.normAux]
    split
    · next h =>
      rw [ih, zpow_add₀ (by norm_num), zpow_one]
      have hc : c = c / 10 * 10 := by omega
      have : (c : ℚ) = ((c / 10 : Nat) : ℚ) * 10 := by
        conv_lhs => rw [hc]
        push_cast; rfl
      rw [this]; ring
    · rfl

theorem norm_val (d : Dec) : decVal d.norm = decVal d := by
  obtain ⟨neg, c, e⟩ := d
  unfold Dec.norm
  simp only
  split
  · next h => subst h; simp [decVal]
  · have := normAux_val c c e
    simp only [decVal]
    rw [mul_assoc, this, mul_assoc]

theorem pyFloat_intStr_norm (i : Int) :
    pyFloat (intStr i) = .ok (.fin (Dec.norm ⟨decide (i < 0), i.natAbs, 0⟩)) := by
  obtain ⟨ds, hds, hv⟩ := nat_digits i.natAbs
  obtain ⟨c, cs, hc, hcd⟩ := natStr_cons i.natAbs
  have hne : ds ≠ [] := by
    rintro rfl
    have := digits_length hds
    rw [hc] at this; simp at this
  have hb := floatBody_plain (decide (i < 0)) [] 0 hds hne (by simp) rfl
  rw [List.append_nil, hc, hv] at hb
  have := pyFloat_body (decide (i < 0)) c cs _ hcd
    (fun x hx => .inl (natStr_digits i.natAbs x (by rw [hc]; simp [hx]))) hb
  rw [← this]
  congr 1
  cases i with
  | ofNat n =>
    have h0 : ¬ (Int.ofNat n < 0) := by simp
    simp only [Int.ofNat_eq_natCast, Int.natAbs_natCast] at hc
    simp only [intStr, decide_eq_true_eq, if_neg h0, List.nil_append]
    exact hc
  | negSucc n => simp [intStr, Int.negSucc_lt_zero] at hc ⊢; rw [hc]

theorem pyFloat_intStr (i : Int) : ∃ d, pyFloat (intStr i) = .ok (.fin d) ∧ decVal d = (i : ℚ) := by
  refine ⟨_, pyFloat_intStr_norm i, ?_⟩
  rw [norm_val]
  obtain ⟨d, h1, h2⟩ := numVal_num (a := .int i) (x := (i : ℚ)) rfl
  simp only [Atom.num?, Option.some.injEq, Flt.fin.injEq] at h1
  rw [h1, h2]

/-- `repr` of a float is read back by `float()`. -/
theorem float_repr (f : Flt) (hf : ∀ d, f = .fin d → d.Canonical) : pyFloat f.repr = .ok f := by
  cases f with
  | fin d => exact float_repr_roundtrip d (hf d rfl)
  | inf b => cases b <;> decide
  | nan => decide

theorem float_text_ne_nil (f : Flt) (hf : ∀ d, f = .fin d → d.Canonical) : f.repr ≠ py"nil" := by
  intro h
  have := float_repr f hf
  rw [h, show pyFloat py"nil" = .error .valueError by decide] at this
  cases this

/-- C16: every float a Decimal/Double/Float field has accepted, under any facets, renders to text that reads back as
the same float. -/
theorem C16_float_roundtrip (fa : NumFacets) (f : Flt) (hf : ∀ d, f = .fin d → d.Canonical)
    (h : (SType.decimal fa).accept (.float f) = .ok (.float f)) :
    (SType.decimal fa).xmlvalue (.float f) = .ok (some f.repr) ∧
    (SType.decimal fa).pythonvalue (.str f.repr) = .ok (.float f) := by
  refine ⟨rfl, ?_⟩
  have hn : Atom.str f.repr ≠ .str py"nil" := fun h => float_text_ne_nil f hf (by injection h)
  simp only [SType.pythonvalue, nilOr, if_neg hn, decimalAccept, float_repr f hf, bind_ok]
  exact h

/-- C16: every int a Decimal field has accepted under enumeration and bounds renders to text that reads back as a
number of the same value. -/
theorem C16_int_roundtrip (fa : NumFacets) (hfin : FiniteFacets fa) (h1 : fa.fractionDigits = none)
    (h2 : fa.pattern = none) (h3 : fa.totalDigits = none) (i : Int)
    (h : (SType.decimal fa).accept (.int i) = .ok (.int i)) :
    ∃ s w, (SType.decimal fa).xmlvalue (.int i) = .ok (some s) ∧
      (SType.decimal fa).pythonvalue (.str s) = .ok w ∧ numVal w = some (i : ℚ) := by
  obtain ⟨d, hd, hv⟩ := pyFloat_intStr i
  have hw : numVal (.float (.fin d)) = some (i : ℚ) := by simp [numVal, hv]
  refine ⟨intStr i, .float (.fin d), rfl, ?_, hw⟩
  have hn : Atom.str (intStr i) ≠ .str py"nil" := by
    intro he
    injection he with he
    rw [he, show pyFloat py"nil" = .error .valueError by decide] at hd
    cases hd
  simp only [SType.pythonvalue, nilOr, if_neg hn, decimalAccept, hd, bind_ok]
  rcases C15_decimal_facets fa hfin (.int i) i rfl (by simp) with ⟨hok, _⟩ | ⟨_, he⟩
  · have hok' : NumOk fa (i : ℚ) (Atom.float (.fin d)).toStr :=
      ⟨hok.enumeration, by rw [h1]; trivial, hok.maxExclusive, hok.maxInclusive, hok.minExclusive, hok.minInclusive,
        by rw [h2]; simp, by rw [h3]; trivial⟩
    rcases C15_decimal_facets fa hfin (.float (.fin d)) i hw (by simp) with ⟨_, he⟩ | ⟨hno, _⟩
    · exact he
    · exact absurd hok' hno
  · rw [he] at h; cases h

/-- C16 fails under `fractionDigits=0`: no int survives, because the text is read as a float whose text has a point
(here for all ints of absolute value below 10^16). -/
theorem C16_fraction_zero (i : Int) (hi : i.natAbs < 10 ^ 16) :
    (SType.decimal { fractionDigits := some 0 }).accept (.int i) = .ok (.int i) ∧
    (SType.decimal { fractionDigits := some 0 }).xmlvalue (.int i) = .ok (some (intStr i)) ∧
    (SType.decimal { fractionDigits := some 0 }).pythonvalue (.str (intStr i)) = .error .valueError := by
  have hfin : FiniteFacets { fractionDigits := some 0 } :=
    ⟨by simp, by simp, by simp, by simp, by simp⟩
  refine ⟨?_, rfl, ?_⟩
  · rcases C15_decimal_facets _ hfin (.int i) i rfl (by simp) with ⟨_, he⟩ | ⟨hno, _⟩
    · exact he
    · refine absurd ⟨by simp, ?_, trivial, trivial, trivial, trivial, by simp, trivial⟩ hno
      simp only [FractionOk, if_true, Atom.toStr]
      have := intStr_no_dot i
      rw [← Bool.not_eq_true, hasChar_iff] at this
      exact this
  · have hpy := pyFloat_intStr_norm i
    have hn : Atom.str (intStr i) ≠ .str py"nil" := by
      intro he
      injection he with he
      rw [he, show pyFloat py"nil" = .error .valueError by decide] at hpy
      cases hpy
    simp only [SType.pythonvalue, nilOr, if_neg hn, decimalAccept, hpy, bind_ok]
    have hdot : '.' ∈ (Atom.float (.fin (Dec.norm ⟨decide (i < 0), i.natAbs, 0⟩))).toStr := by
      simp only [Atom.toStr, Flt.repr]
      by_cases h0 : i.natAbs = 0
      · rw [h0]; simp [Dec.norm, Dec.repr]
      · have hk : ∀ f a (e : Int), a ≠ 0 → 0 ≤ e → (Dec.normAux f a e).1 ≠ 0 ∧ 0 ≤ (Dec.normAux f a e).2 ∧
            (Dec.normAux f a e).1 * 10 ^ (Dec.normAux f a e).2.toNat = a * 10 ^ e.toNat := by
          intro f
          induction f with
          | zero => intro a e ha he; exact ⟨ha, he, rfl⟩
          | succ f ih =>
            intro a e ha he
            simp only [Dec.normAux]
            split
            · next hm =>
              obtain ⟨q1, q2, q3⟩ := ih (a / 10) (e + 1) (by omega) (by omega)
              refine ⟨q1, q2, ?_⟩
              rw [q3, show (e + 1).toNat = e.toNat + 1 by omega, Nat.pow_succ]
              have : a = a / 10 * 10 := by omega
              conv_rhs => rw [this]
              ring
            · exact ⟨ha, he, rfl⟩
        obtain ⟨q1, q2, q3⟩ := hk i.natAbs i.natAbs 0 h0 (by omega)
        simp only [Dec.norm, if_neg h0]
        generalize (Dec.normAux i.natAbs i.natAbs 0).1 = a at *
        generalize (Dec.normAux i.natAbs i.natAbs 0).2 = e at *
        simp at q3
        simp only [Dec.repr, if_neg q1]
        have hlen : ((natStr a).length : Int) + e ≤ 16 := by
          have h1 : (natStr a).length ≤ 16 - e.toNat := by
            rw [natStr_length_le]
            have h2 : e.toNat < 16 := by
              by_contra hcon
              have h3 : 10 ^ 16 ≤ 10 ^ e.toNat := Nat.pow_le_pow_right (by omega) (by omega)
              have h4 : 1 * 10 ^ e.toNat ≤ a * 10 ^ e.toNat := Nat.mul_le_mul_right _ (by omega)
              omega
            refine ⟨by omega, ?_⟩
            by_contra hcon
            have h3 : 10 ^ (16 - e.toNat) * 10 ^ e.toNat ≤ a * 10 ^ e.toNat := Nat.mul_le_mul_right _ (by omega)
            rw [← Nat.pow_add, show 16 - e.toNat + e.toNat = 16 by omega] at h3
            omega
          have h5 : 1 ≤ (natStr a).length := by
            have := natStr_ne_nil a
            cases hh : natStr a with
            | nil => exact absurd hh this
            | cons x xs => simp
          omega
        have h5 : 1 ≤ (natStr a).length := by
          have := natStr_ne_nil a
          cases hh : natStr a with
          | nil => exact absurd hh this
          | cons x xs => simp
        rw [if_pos (by omega), if_neg (by omega), if_pos (by omega)]
        simp
    have hc : checkRestrictions { fractionDigits := some 0 } (.float (.fin (Dec.norm ⟨decide (i < 0), i.natAbs, 0⟩)))
        = .error .valueError := by
      rcases check_decides _ hfin _ _ (show numVal (.float (.fin (Dec.norm ⟨decide (i < 0), i.natAbs, 0⟩))) = some _ from rfl)
        with ⟨_, hok⟩ | ⟨he, _⟩
      · have := hok.fraction
        simp only [FractionOk, if_true] at this
        exact absurd hdot this
      · exact he
    rw [hc]; rfl

example : (SType.decimal {}).accept (.float (.fin ⟨true, 125, -7⟩)) = .ok (.float (.fin ⟨true, 125, -7⟩)) ∧
    (SType.decimal {}).xmlvalue (.float (.fin ⟨true, 125, -7⟩)) = .ok (some py"-1.25e-05") := by decide

/-! ### C17 -/

theorem str_eqv_unbounded (s : Str) : (Atom.str s).eqv .unbounded = false := by
  simp [Atom.eqv, Atom.num?]

/-- C17: an int or `unbounded` renders to text that reads back as the same value. -/
theorem C17_maxOccurs_roundtrip (v : Atom) (hv : v = .unbounded ∨ ∃ i, v = .int i) :
    SType.maxOccurs.accept v = .ok v ∧
    ∃ s, SType.maxOccurs.xmlvalue v = .ok (some s) ∧ SType.maxOccurs.pythonvalue (.str s) = .ok v := by
  rcases hv with rfl | ⟨i, rfl⟩
  · exact ⟨by decide, py"unbounded", by decide, by decide⟩
  · have he : (Atom.int i).eqv .unbounded = false := by simp [Atom.eqv, Atom.num?, Flt.eqv]
    refine ⟨by simp [SType.accept, maxOccursAccept, he, pyIntOf, Except.map], intStr i, ?_, ?_⟩
    · simp [SType.xmlvalue, maxOccursXml, he, Atom.toStr]
    · have hne : Atom.str (intStr i) ≠ .str py"unbounded" := by
        intro h
        injection h with h
        have := pyInt_intStr i
        rw [h, show pyInt py"unbounded" = .error .valueError by decide] at this
        cases this
      simp [SType.pythonvalue, maxOccursAccept, hne, str_eqv_unbounded, pyIntOf, pyInt_intStr, Except.map]

/-- C17: the reading of every text. -/
theorem C17_maxOccurs_text (s : Str) :
    (s = py"unbounded" ∧ SType.maxOccurs.pythonvalue (.str s) = .ok .unbounded) ∨
    (∃ i, Denotes s i ∧ SType.maxOccurs.pythonvalue (.str s) = .ok (.int i)) ∨
    (s ≠ py"unbounded" ∧ (∀ i, ¬ Denotes s i) ∧ SType.maxOccurs.pythonvalue (.str s) = .error .valueError) := by
  by_cases hs : s = py"unbounded"
  · subst hs; exact .inl ⟨rfl, by decide⟩
  · right
    have hne : Atom.str s ≠ .str py"unbounded" := fun h => hs (by injection h)
    have hv : SType.maxOccurs.pythonvalue (.str s) = (pyInt s).map .int := by
      simp [SType.pythonvalue, maxOccursAccept, hne, str_eqv_unbounded, pyIntOf]
    rw [hv]
    cases hp : pyInt s with
    | ok i => exact .inl ⟨i, (pyInt_iff s i).1 hp, rfl⟩
    | error e =>
      right
      refine ⟨hs, ?_, ?_⟩
      · intro i hi; rw [(pyInt_iff s i).2 hi] at hp; cases hp
      · rw [pyInt_error s e hp]; rfl

example : SType.maxOccurs.pythonvalue (.str py"12x") = .error .valueError := by decide

/-! ### C06 -/

theorem maxOccurs_idem (v w : Atom) (h : maxOccursAccept v = .ok w) : maxOccursAccept w = .ok w := by
  have key : ∀ i, maxOccursAccept (.int i) = .ok (.int i) := fun i => (C17_maxOccurs_roundtrip _ (.inr ⟨i, rfl⟩)).1
  have hun : maxOccursAccept .unbounded = .ok .unbounded := by decide
  have hmap : ∀ x : Except Exn Int, x.map Atom.int = .ok w → maxOccursAccept w = .ok w := by
    intro x hx
    cases x with
    | error e => cases hx
    | ok i => injection hx with hx; subst hx; exact key i
  unfold maxOccursAccept at h
  split at h
  · injection h with h; subst h; rfl
  · split at h
    · injection h with h; subst h; exact hun
    · exact hmap _ h

/-- C06: accepting an accepted value again changes nothing, for every simple type and value, except that a
`decimal.Decimal` given to a Decimal type is stored as text. -/
theorem C06_accept_idempotent (t : SType) (v w : Atom) (h : t.accept v = .ok w)
    (hd : ∀ f, t = .decimal f → v ≠ .unbounded ∧ ∀ d, v ≠ .decimal d) : t.accept w = .ok w := by
  have hstr : ∀ f v w, stringAccept f v = .ok w → stringAccept f w = .ok w := by
    intro f v w h
    cases v with
    | none => simp [stringAccept] at h; subst h; rfl
    | str s =>
      have h' := h
      simp only [stringAccept] at h
      have hw : w = .str (cleanWhitespace f.ws s) := by
        revert h
        cases ifGiven f.pattern (fun p => raiseIf (!p.matches (cleanWhitespace f.ws s)) .valueError) with
        | error e => intro h; cases h
        | ok u =>
        rw [bind_ok]
        cases raiseIf (!f.enumeration.isEmpty && !f.enumeration.contains (cleanWhitespace f.ws s)) .valueError with
        | error e => intro h; cases h
        | ok u =>
        rw [bind_ok]
        cases ifGiven (truthy? f.length) (fun n => raiseIf (((cleanWhitespace f.ws s).length : Int) != n) .valueError) with
        | error e => intro h; cases h
        | ok u =>
        rw [bind_ok]
        cases ifGiven (truthy? f.minLength) (fun n => raiseIf (((cleanWhitespace f.ws s).length : Int) < n) .valueError) with
        | error e => intro h; cases h
        | ok u =>
        rw [bind_ok]
        cases ifGiven (truthy? f.maxLength) (fun n => raiseIf (((cleanWhitespace f.ws s).length : Int) > n) .valueError) with
        | error e => intro h; cases h
        | ok u => rw [bind_ok]; intro h; injection h with h; exact h.symm
      subst hw
      simp only [stringAccept] at h' ⊢
      rw [cleanWhitespace_idem]
      exact h'
    | _ => simp [stringAccept] at h
  cases t with
  | string f => exact hstr f v w h
  | lang => exact hstr {} v w h
  | boolean =>
    simp only [SType.accept, boolAccept] at h ⊢
    split at h
    · next hc => injection h with h; subst h; rw [if_pos hc]
    · cases h
  | date =>
    simp only [SType.accept] at h ⊢
    cases v with
    | none => simp [dateAccept] at h; subst h; rfl
    | xsdDate d tz => simp [dateAccept] at h; subst h; rfl
    | date d =>
      simp only [dateAccept] at h
      rcases mkXSDDate_eq d.year d.month d.day none with ⟨_, he⟩ | ⟨_, he⟩
      · rw [he] at h; injection h with h; subst h; rfl
      · rw [he] at h; cases h
    | _ => simp [dateAccept] at h
  | datetime iso =>
    simp only [SType.accept] at h ⊢
    cases v with
    | none => simp [datetimeAccept] at h; subst h; rfl
    | datetime d t tz => simp [datetimeAccept] at h; subst h; rfl
    | str s =>
      simp only [datetimeAccept] at h
      cases hi : iso s with
      | error e => rw [hi] at h; cases h
      | ok p => rw [hi] at h; injection h with h; subst h; rfl
    | _ => simp [datetimeAccept] at h
  | time iso =>
    simp only [SType.accept] at h ⊢
    cases v with
    | none => simp [timeAccept] at h; subst h; rfl
    | time t tz => simp [timeAccept] at h; subst h; rfl
    | str s =>
      simp only [timeAccept, timeParse] at h
      split at h
      · injection h with h; subst h; rfl
      · cases h
    | _ => simp [timeAccept] at h
  | decimal f =>
    obtain ⟨h1, h2⟩ := hd f rfl
    simp only [SType.accept] at h ⊢
    have hgo : ∀ u, (checkRestrictions f u >>= fun _ => Except.ok u) = .ok w → u = w ∧ checkRestrictions f u = .ok () := by
      intro u hu
      cases hc : checkRestrictions f u with
      | error e => rw [hc] at hu; cases hu
      | ok x => rw [hc] at hu; injection hu with hu; exact ⟨hu, rfl⟩
    cases v with
    | none => simp [decimalAccept] at h; subst h; rfl
    | decimal d => exact absurd rfl (h2 d)
    | unbounded => exact absurd rfl h1
    | float x => obtain ⟨rfl, _⟩ := hgo _ h; exact h
    | int x => obtain ⟨rfl, _⟩ := hgo _ h; exact h
    | bool x => obtain ⟨rfl, _⟩ := hgo _ h; exact h
    | str s =>
      simp only [decimalAccept] at h
      cases hp : pyFloat s with
      | error e => rw [hp] at h; cases h
      | ok x =>
        rw [hp, bind_ok] at h
        obtain ⟨rfl, hc⟩ := hgo _ h
        simp only [decimalAccept, hc, bind_ok]
    | _ => simp [decimalAccept] at h
  | integer f =>
    simp only [SType.accept] at h ⊢
    have hgo : ∀ u, (checkRestrictions f u >>= fun _ => Except.ok u) = .ok w → u = w ∧ checkRestrictions f u = .ok () := by
      intro u hu
      cases hc : checkRestrictions f u with
      | error e => rw [hc] at hu; cases hu
      | ok x => rw [hc] at hu; injection hu with hu; exact ⟨hu, rfl⟩
    cases v with
    | none => simp [integerAccept] at h; subst h; rfl
    | int x => obtain ⟨rfl, _⟩ := hgo _ h; exact h
    | bool x => obtain ⟨rfl, _⟩ := hgo _ h; exact h
    | str s =>
      simp only [integerAccept] at h
      cases hp : pyInt s with
      | error e => rw [hp] at h; cases h
      | ok x =>
        rw [hp, bind_ok] at h
        obtain ⟨rfl, hc⟩ := hgo _ h
        simp only [integerAccept, hc, bind_ok]
    | _ => simp [integerAccept] at h
  | maxOccurs => exact maxOccurs_idem v w h

/-- The exception: `Decimal('1.5')` is stored as the str '1.5', which accepted again becomes the float 1.5. -/
example : (SType.decimal {}).accept (.decimal ⟨false, 15, -1⟩) = .ok (.str py"1.5") ∧
    (SType.decimal {}).accept (.str py"1.5") = .ok (.float (.fin ⟨false, 15, -1⟩)) := by decide
example : (SType.string { ws := .collapse }).accept (.str py"a \n b") = .ok (.str py"a b") := by decide

end Soapfish
