import Verif.Props.Numbers
import Verif.Spec.Numerals
/-!
C121: which numbers a Decimal, Double or Float field writes in the form XML Schema prescribes, and that it reads every
number of that form.
-/
namespace Soapfish
open Spec

theorem figure_digit {c : Char} (h : '0'.toNat ≤ c.toNat ∧ c.toNat ≤ '9'.toNat) :
    IsDigit c ∧ uniDigit? c = some (c.toNat - '0'.toNat) := by
  have h0 : '0'.toNat = 48 := by decide
  have h9 : '9'.toNat = 57 := by decide
  rw [h0, h9] at h
  have : IsDigit c := ⟨c.toNat - 48, by omega, by
    unfold digitChar; rw [show 0x30 + (c.toNat - 48) = c.toNat by omega]; exact (Char.ofNat_toNat c).symm⟩
  refine ⟨this, ?_⟩
  obtain ⟨n, hn, hc, hu⟩ := this.uni
  rw [hu, hc, h0]
  revert hn
  revert n
  have hall : ∀ n : Fin 10, (digitChar n.1).toNat - 48 = n.1 := by decide
  intro n _ _ hn
  rw [hall ⟨n, hn⟩]

theorem digit_figure {c : Char} (h : IsDigit c) : '0'.toNat ≤ c.toNat ∧ c.toNat ≤ '9'.toNat := by
  obtain ⟨n, hn, rfl⟩ := h
  have hall : ∀ n : Fin 10, '0'.toNat ≤ (digitChar n.1).toNat ∧ (digitChar n.1).toNat ≤ '9'.toNat := by decide
  exact hall ⟨n, hn⟩

theorem figures_fold (s : Str) (n : Nat) :
    s.foldl (fun n c => 10 * n + (c.toNat - '0'.toNat)) n = n * 10 ^ s.length + figures s := by
  induction s generalizing n with
  | nil => simp [figures]
  | cons c cs ih =>
    simp only [List.foldl_cons, figures, List.length_cons]
    rw [ih, ih (10 * 0 + _)]
    ring

theorem figures_append (a b : Str) : figures (a ++ b) = figures a * 10 ^ b.length + figures b := by
  rw [figures, List.foldl_append, figures_fold b]; rfl

theorem figures_digits {s : Str} (h : AllFigures s) :
    Digits s (s.map fun c => c.toNat - '0'.toNat) ∧ digitsNat (s.map fun c => c.toNat - '0'.toNat) = figures s := by
  constructor
  · induction s with
    | nil => exact .nil
    | cons c cs ih =>
      exact .cons (figure_digit (h c (by simp))).2 (ih fun x hx => h x (List.mem_cons_of_mem _ hx))
  · clear h
    induction s using List.reverseRecOn with
    | nil => rfl
    | append_singleton cs c ih =>
      rw [List.map_append, digitsNat_append, figures_append, ih]
      simp [digitsNat, figures]

theorem figures_natStr (n : Nat) : figures (natStr n) = n := by
  have ha : AllFigures (natStr n) := fun c hc => digit_figure (natStr_digits n c hc)
  obtain ⟨h1, h2⟩ := figures_digits ha
  obtain ⟨ds, h3, h4⟩ := nat_digits n
  have : ∀ {s a b}, Digits s a → Digits s b → a = b := by
    intro s a b h
    induction h generalizing b with
    | nil => intro h; cases h; rfl
    | cons hc _ ih =>
      intro h
      cases h with
      | cons hc' h' =>
        rw [hc] at hc'
        injection hc' with hc'
        rw [hc', ih h']
  rw [← h2, this h1 h3, h4]

theorem allFigures_nat (n : Nat) : AllFigures (natStr n) := fun c hc => digit_figure (natStr_digits n c hc)
theorem allFigures_zeros (n : Nat) : AllFigures (zeros n) := fun c hc => digit_figure (zeros_digit n c hc)

theorem figures_zeros (n : Nat) : figures (zeros n) = 0 := by
  induction n with
  | zero => rfl
  | succ n ih =>
    rw [zeros, List.replicate_succ', figures_append]
    rw [show figures (List.replicate n '0') = 0 from ih]
    decide

theorem allFigures_append {a b : Str} (h1 : AllFigures a) (h2 : AllFigures b) : AllFigures (a ++ b) := by
  intro c hc
  rcases List.mem_append.mp hc with h | h
  · exact h1 c h
  · exact h2 c h

theorem allFigures_take {a : Str} (h : AllFigures a) (n : Nat) : AllFigures (a.take n) :=
  fun c hc => h c (List.mem_of_mem_take hc)
theorem allFigures_drop {a : Str} (h : AllFigures a) (n : Nat) : AllFigures (a.drop n) :=
  fun c hc => h c (List.mem_of_mem_drop hc)

/-! ### Reading -/

/-- Characters of the texts of numbers. -/
def NumberChar (c : Char) : Prop := FloatChar c ∨ c = 'E'

theorem NumberChar.props {c : Char} (h : NumberChar c) : isSpace c = false ∧ c ≠ '_' := by
  rcases h with h | rfl
  · exact h.props
  · decide

theorem allFigures_chars {s : Str} (h : AllFigures s) : ∀ c ∈ s, NumberChar c :=
  fun c hc => .inl (.inl (figure_digit (h c hc)).1)

theorem allFigures_head {s r : Str} (h : AllFigures s) (hr : ∀ c, r.head? = some c → uniDigit? c = none) :
    takeDigits (s ++ r) = (s.map (fun c => c.toNat - '0'.toNat), r) :=
  takeDigits_digits (figures_digits h).1 r hr

/-- An unsigned decimal followed by an exponent part. -/
theorem unsigned_body {s : Str} {x : ℚ} (h : UnsignedDecimal s x) (neg : Bool) (r : Str) (e : Int)
    (hr : ∀ c, r.head? = some c → uniDigit? c = none ∧ c ≠ '.') (he : floatExp r = some e) :
    ∃ d, floatBody neg (s ++ r) = some d ∧ decVal d = (if neg then -x else x) * 10 ^ e := by
  cases h with
  | whole hne ha =>
    refine ⟨_, floatBody_plain neg r e (figures_digits ha).1 (by simpa using hne) hr he, ?_⟩
    rw [norm_val, (figures_digits ha).2]
    cases neg <;> simp [decVal]
  | @point a b hne ha hb =>
    have h1 := allFigures_head (r := '.' :: (b ++ r)) ha (by intro c hc; simp at hc; subst hc; exact dot_not_digit)
    have h2 := allFigures_head (r := r) hb (fun c hc => (hr c hc).1)
    have hl : (List.map (fun c : Char => c.toNat - '0'.toNat) b).length = b.length := List.length_map _
    have hv := (figures_digits (allFigures_append ha hb)).2
    rw [List.map_append] at hv
    refine ⟨Dec.norm ⟨neg, figures (a ++ b), e - b.length⟩, ?_, ?_⟩
    · unfold floatBody
      rw [List.append_assoc, List.cons_append, h1]
      simp only [h2, he]
      rw [if_neg]
      · rw [hv, hl]
      · simp only [List.isEmpty_iff, Bool.and_eq_true, List.map_eq_nil_iff, not_and]
        rintro rfl rfl
        exact hne rfl
    · rw [norm_val]
      have h10 : (10 : ℚ) ≠ 0 := by norm_num
      simp only [decVal, zpow_sub₀ h10, zpow_natCast]
      cases neg <;> simp <;> ring

theorem exponent_reads {t : Str} {k : Int} (h : XsdExponent t k) {c : Char} (hc : c = 'e' ∨ c = 'E') :
    floatExp (c :: t) = some k := by
  have key : ∀ {s}, s ≠ [] → AllFigures s →
      ∃ a as, takeDigits s = (a :: as, []) ∧ digitsNat (a :: as) = figures s := by
    intro s hne ha
    have h1 := allFigures_head (r := []) ha (by simp)
    rw [List.append_nil] at h1
    have h2 := (figures_digits ha).2
    cases s with
    | nil => exact absurd rfl hne
    | cons x xs => exact ⟨_, _, h1, h2⟩
  cases h with
  | bare hne ha =>
    obtain ⟨a, as, h1, h2⟩ := key hne ha
    have hs : splitSign t = (false, t) := by
      cases t with
      | nil => rfl
      | cons x xs =>
        have hd := (figure_digit (ha x (by simp))).1
        unfold splitSign
        split
        · next h => injection h with h _; exact absurd h (hd.ne '-' (by decide))
        · next h => injection h with h _; exact absurd h (hd.ne '+' (by decide))
        · rfl
    simp [floatExp, hc, hs, h1, h2]
  | plus hne ha =>
    obtain ⟨a, as, h1, h2⟩ := key hne ha
    simp [floatExp, hc, splitSign, h1, h2]
  | minus hne ha =>
    obtain ⟨a, as, h1, h2⟩ := key hne ha
    simp [floatExp, hc, splitSign, h1, h2]

theorem exponent_chars {t : Str} {k : Int} (h : XsdExponent t k) : ∀ c ∈ t, NumberChar c := by
  cases h with
  | bare _ ha => exact allFigures_chars ha
  | plus _ ha =>
    intro c hc
    rcases List.mem_cons.mp hc with rfl | hc
    · exact .inl (.inr (.inr (.inr (.inl rfl))))
    · exact allFigures_chars ha c hc
  | minus _ ha =>
    intro c hc
    rcases List.mem_cons.mp hc with rfl | hc
    · exact .inl (.inr (.inr (.inr (.inr rfl))))
    · exact allFigures_chars ha c hc

theorem unsigned_head {s : Str} {x : ℚ} (h : UnsignedDecimal s x) :
    ∃ c cs, s = c :: cs ∧ (IsDigit c ∨ c = '.') ∧ ∀ y ∈ cs, IsDigit y ∨ y = '.' := by
  have hf : ∀ {s}, AllFigures s → ∀ y ∈ s, IsDigit y ∨ y = '.' := fun ha y hy => .inl (figure_digit (ha y hy)).1
  cases h with
  | whole hne ha =>
    cases s with
    | nil => exact absurd rfl hne
    | cons c cs => exact ⟨c, cs, rfl, hf ha c (by simp), fun y hy => hf ha y (List.mem_cons_of_mem _ hy)⟩
  | @point a b hne ha hb =>
    cases a with
    | nil => exact ⟨'.', b, rfl, .inr rfl, hf hb⟩
    | cons c cs =>
      refine ⟨c, cs ++ '.' :: b, rfl, hf ha c (by simp), fun y hy => ?_⟩
      rcases List.mem_append.mp hy with hy | hy
      · exact hf ha y (List.mem_cons_of_mem _ hy)
      · rcases List.mem_cons.mp hy with rfl | hy
        · exact .inr rfl
        · exact hf hb y hy

/-- `float()` of an optional sign and a text of number characters that begins with a digit or a point. -/
theorem pyFloat_number (neg : Bool) (sign : Str) (hsign : (neg = false ∧ (sign = [] ∨ sign = ['+'])) ∨ (neg = true ∧ sign = ['-']))
    (c : Char) (r : Str) (d : Dec) (hc : IsDigit c ∨ c = '.') (hr : ∀ x ∈ r, NumberChar x)
    (hb : floatBody neg (c :: r) = some d) : pyFloat (sign ++ c :: r) = .ok (.fin d) := by
  have hcc : NumberChar c := by
    rcases hc with h | rfl
    · exact .inl (.inl h)
    · exact .inl (.inr (.inl rfl))
  have hbody : ∀ x ∈ c :: r, NumberChar x := by
    intro x hx
    rcases List.mem_cons.mp hx with rfl | hx
    · exact hcc
    · exact hr x hx
  have hall : ∀ x ∈ sign ++ c :: r, NumberChar x := by
    intro x hx
    rcases List.mem_append.mp hx with hx | hx
    · rcases hsign with ⟨_, rfl | rfl⟩ | ⟨_, rfl⟩
      · cases hx
      · simp at hx; subst hx; exact .inl (.inr (.inr (.inr (.inl rfl))))
      · simp at hx; subst hx; exact .inl (.inr (.inr (.inr (.inr rfl))))
    · exact hbody x hx
  have hstrip := strip_of_no_space (fun x hx => (hall x hx).props.1)
  have hu : '_' ∉ c :: r := fun h => (hbody _ h).props.2 rfl
  have hl : ∀ n, n < 10 → lowerC (digitChar n) = digitChar n :=
    digit_cases (P := fun n => lowerC (digitChar n) = digitChar n) (by decide)
  have hlow : lower (c :: r) = c :: lower r := by
    rcases hc with ⟨n, hn, rfl⟩ | rfl
    · simp [lower, hl n hn]
    · rfl
  have hne : c ≠ 'i' ∧ c ≠ 'n' ∧ c ≠ '-' ∧ c ≠ '+' := by
    rcases hc with h | rfl
    · exact ⟨h.ne 'i' (by decide), h.ne 'n' (by decide), h.ne '-' (by decide), h.ne '+' (by decide)⟩
    · decide
  obtain ⟨hci, hcn, hcm, hcp⟩ := hne
  have hsp : splitSign (sign ++ c :: r) = (neg, c :: r) := by
    rcases hsign with ⟨rfl, rfl | rfl⟩ | ⟨rfl, rfl⟩
    · rw [List.nil_append]
      unfold splitSign
      split
      · next h => injection h with h _; exact absurd h hcm
      · next h => injection h with h _; exact absurd h hcp
      · rfl
    · rfl
    · rfl
  unfold pyFloat
  rw [hstrip]
  simp only [hsp, hlow, List.cons.injEq, hci, hcn, false_and, or_self, if_false, dropUnderscores_none _ hu,
    Option.bind_some, hb]

theorem decimal_reads {s : Str} {x : ℚ} (h : XsdDecimal s x) (r : Str) (e : Int)
    (hr : ∀ c, r.head? = some c → uniDigit? c = none ∧ c ≠ '.') (he : floatExp r = some e)
    (hch : ∀ c ∈ r, NumberChar c) : ∃ d, pyFloat (s ++ r) = .ok (.fin d) ∧ decVal d = x * 10 ^ e := by
  have key : ∀ (neg : Bool) (sign u : Str) (y : ℚ), UnsignedDecimal u y →
      ((neg = false ∧ (sign = [] ∨ sign = ['+'])) ∨ (neg = true ∧ sign = ['-'])) →
      ∃ d, pyFloat (sign ++ (u ++ r)) = .ok (.fin d) ∧ decVal d = (if neg then -y else y) * 10 ^ e := by
    intro neg sign u y hu hs
    obtain ⟨d, hd, hv⟩ := unsigned_body hu neg r e hr he
    obtain ⟨c, cs, rfl, hc, hcs⟩ := unsigned_head hu
    refine ⟨d, ?_, hv⟩
    rw [List.cons_append] at hd ⊢
    refine pyFloat_number neg sign hs c (cs ++ r) d hc ?_ hd
    intro z hz
    rcases List.mem_append.mp hz with hz | hz
    · rcases hcs z hz with h | h
      · exact .inl (.inl h)
      · exact .inl (.inr (.inl h))
    · exact hch z hz
  cases h with
  | bare hu => simpa using key false [] _ _ hu (.inl ⟨rfl, .inl rfl⟩)
  | plus hu => simpa using key false ['+'] _ _ hu (.inl ⟨rfl, .inr rfl⟩)
  | minus hu => simpa using key true ['-'] _ _ hu (.inr ⟨rfl, rfl⟩)

theorem number_reads {s : Str} {x : ℚ} (h : XsdNumber s x) : ∃ d, pyFloat s = .ok (.fin d) ∧ decVal d = x := by
  cases h with
  | plain h =>
    obtain ⟨d, h1, h2⟩ := decimal_reads h [] 0 (by simp) rfl (by simp)
    exact ⟨d, by simpa using h1, by simpa using h2⟩
  | @power _ _ c t k h hc ht =>
    refine decimal_reads h (c :: t) k ?_ (exponent_reads ht hc) ?_
    · intro y hy
      simp at hy
      subst hy
      rcases hc with rfl | rfl <;> decide
    · intro y hy
      rcases List.mem_cons.mp hy with rfl | hy
      · rcases hc with rfl | rfl
        · exact .inl (.inr (.inr (.inl rfl)))
        · exact .inr rfl
      · exact exponent_chars ht y hy

/-- C121: the text of any number of `xsd:decimal`, `xsd:float` or `xsd:double` is read as the float of that value, then
checked against the facets of the type as if that float had been assigned. -/
theorem C121_reads (fa : NumFacets) (s : Str) (x : ℚ) (h : XsdNumber s x) :
    ∃ d, decVal d = x ∧ (SType.decimal fa).pythonvalue (.str s) = (SType.decimal fa).accept (.float (.fin d)) := by
  obtain ⟨d, h1, h2⟩ := number_reads h
  refine ⟨d, h2, ?_⟩
  have hn : Atom.str s ≠ .str py"nil" := by
    intro he
    injection he with he
    rw [he, show pyFloat py"nil" = .error .valueError by decide] at h1
    cases h1
  simp only [SType.pythonvalue, nilOr, if_neg hn, decimalAccept, h1, bind_ok, SType.accept]

/-- C121: so are the three texts of `xsd:float` and `xsd:double` that are no numbers. -/
theorem C121_reads_special (fa : NumFacets) :
    (SType.decimal fa).pythonvalue (.str py"INF") = (SType.decimal fa).accept (.float (.inf false)) ∧
    (SType.decimal fa).pythonvalue (.str py"-INF") = (SType.decimal fa).accept (.float (.inf true)) ∧
    (SType.decimal fa).pythonvalue (.str py"NaN") = (SType.decimal fa).accept (.float .nan) := by
  refine ⟨?_, ?_, ?_⟩ <;>
    · simp only [SType.pythonvalue, nilOr, decimalAccept, SType.accept]
      rw [if_neg (by decide)]
      simp only [show pyFloat py"INF" = .ok (.inf false) by decide, show pyFloat py"-INF" = .ok (.inf true) by decide,
        show pyFloat py"NaN" = .ok .nan by decide, bind_ok]

/-! ### Writing -/

/-- Digits, then a point, then digits. -/
theorem decimal_point (neg : Bool) {a b : Str} {x : ℚ} (hne : a ++ b ≠ []) (ha : AllFigures a) (hb : AllFigures b)
    (hx : (if neg then -1 else 1) * ((figures (a ++ b) : ℚ) / 10 ^ b.length) = x) :
    XsdDecimal ((if neg then ['-'] else []) ++ (a ++ '.' :: b)) x := by
  subst hx
  cases neg with
  | true => simpa using XsdDecimal.minus (.point hne ha hb)
  | false => simpa using XsdDecimal.bare (.point hne ha hb)

theorem decimal_whole (neg : Bool) {a : Str} {x : ℚ} (hne : a ≠ []) (ha : AllFigures a)
    (hx : (if neg then -1 else 1) * (figures a : ℚ) = x) : XsdDecimal ((if neg then ['-'] else []) ++ a) x := by
  subst hx
  cases neg with
  | true => simpa using XsdDecimal.minus (.whole hne ha)
  | false => simpa using XsdDecimal.bare (.whole hne ha)

/-- The digits of a number, a point after the first. -/
theorem decimal_mantissa (neg : Bool) (n : Nat) :
    XsdDecimal ((if neg then ['-'] else []) ++ (match natStr n with
        | c :: [] => [c]
        | c :: cs => c :: '.' :: cs
        | [] => []))
      ((if neg then -1 else 1) * (n : ℚ) / 10 ^ ((natStr n).length - 1)) := by
  have hf := figures_natStr n
  have ha := allFigures_nat n
  have hn := natStr_ne_nil n
  generalize natStr n = s at *
  match s, ha, hf, hn with
  | [], _, _, hn => exact absurd rfl hn
  | [c], ha, hf, _ =>
    refine decimal_whole neg (by simp) ha ?_
    simp [hf]
  | c :: c' :: cs, ha, hf, _ =>
    refine decimal_point neg (a := [c]) (b := c' :: cs) (by simp) (allFigures_take ha 1) (allFigures_drop ha 1) ?_
    rw [show [c] ++ c' :: cs = c :: c' :: cs from rfl, hf, mul_div_assoc]
    rfl

theorem exponent_pad (e : Int) : XsdExponent ((if e < 0 then ['-'] else ['+']) ++ pad2 e.natAbs) e := by
  have hf : figures (pad2 e.natAbs) = e.natAbs := by
    unfold pad2
    split
    · rw [show '0' :: natStr e.natAbs = ['0'] ++ natStr e.natAbs from rfl, figures_append, figures_natStr]
      simp [figures]
    · exact figures_natStr _
  have ha : AllFigures (pad2 e.natAbs) := by
    unfold pad2
    split
    · exact allFigures_append (allFigures_zeros 1) (allFigures_nat _)
    · exact allFigures_nat _
  have hne : pad2 e.natAbs ≠ [] := by
    unfold pad2
    split
    · simp
    · exact natStr_ne_nil _
  by_cases h : e < 0
  · have := XsdExponent.minus hne ha
    rw [hf, show -((e.natAbs : Nat) : Int) = e by omega] at this
    simpa [h] using this
  · have := XsdExponent.plus hne ha
    rw [hf, show ((e.natAbs : Nat) : Int) = e by omega] at this
    simpa [h] using this

theorem exponent_nat (e : Int) : XsdExponent ((if e < 0 then ['-'] else ['+']) ++ natStr e.natAbs) e := by
  have hf := figures_natStr e.natAbs
  have ha := allFigures_nat e.natAbs
  have hne := natStr_ne_nil e.natAbs
  by_cases h : e < 0
  · have := XsdExponent.minus hne ha
    rw [hf, show -((e.natAbs : Nat) : Int) = e by omega] at this
    simpa [h] using this
  · have := XsdExponent.plus hne ha
    rw [hf, show ((e.natAbs : Nat) : Int) = e by omega] at this
    simpa [h] using this

theorem dec_abs (d : Dec) : |decVal d| = (d.coeff : ℚ) * 10 ^ d.exp := by
  have h1 : (0 : ℚ) ≤ (d.coeff : ℚ) * 10 ^ d.exp := by positivity
  unfold decVal
  cases d.neg
  · simp only [Bool.false_eq_true, if_false, one_mul]; exact abs_of_nonneg h1
  · simp only [if_true, neg_mul, one_mul, abs_neg]; exact abs_of_nonneg h1

/-- The position of the point is the order of magnitude. -/
theorem dec_magnitude (d : Dec) (hc : d.coeff ≠ 0) (k : Int) :
    |decVal d| < 10 ^ k ↔ ((natStr d.coeff).length : Int) + d.exp ≤ k := by
  have h10 : (1 : ℚ) < 10 := by norm_num
  have h0 : (10 : ℚ) ≠ 0 := by norm_num
  rw [dec_abs, ← lt_div_iff₀ (by positivity), ← zpow_sub₀ h0]
  have hlen := natStr_length_le d.coeff
  have hpos : 1 ≤ (natStr d.coeff).length := by
    rw [← Nat.not_lt]; intro h
    exact natStr_ne_nil d.coeff (List.length_eq_zero_iff.mp (by omega))
  constructor
  · intro h
    have hk : 0 < k - d.exp := by
      rw [← Int.not_le]
      intro hle
      have h1 : (10 : ℚ) ^ (k - d.exp) ≤ 10 ^ (0 : Int) := zpow_le_zpow_right₀ h10.le hle
      rw [zpow_zero] at h1
      have h2 : (1 : ℚ) ≤ d.coeff := by exact_mod_cast Nat.one_le_iff_ne_zero.mpr hc
      exact absurd (lt_of_lt_of_le h h1) (not_lt.mpr h2)
    have he : (10 : ℚ) ^ (k - d.exp) = ((10 ^ (k - d.exp).toNat : Nat) : ℚ) := by
      push_cast
      rw [← zpow_natCast, Int.toNat_of_nonneg (by omega)]
    rw [he, Nat.cast_lt] at h
    have := (hlen (k - d.exp).toNat).mpr ⟨by omega, h⟩
    omega
  · intro h
    have h1 : d.coeff < 10 ^ (k - d.exp).toNat := ((hlen _).mp (by omega)).2
    have he : (10 : ℚ) ^ (k - d.exp) = ((10 ^ (k - d.exp).toNat : Nat) : ℚ) := by
      push_cast
      rw [← zpow_natCast, Int.toNat_of_nonneg (by omega)]
    rw [he, Nat.cast_lt]
    exact h1

theorem decimal_chars {s : Str} {x : ℚ} (h : XsdDecimal s x) : ∀ c ∈ s, IsDigit c ∨ c = '.' ∨ c = '+' ∨ c = '-' := by
  have key : ∀ {u y}, UnsignedDecimal u y → ∀ c ∈ u, IsDigit c ∨ c = '.' ∨ c = '+' ∨ c = '-' := by
    intro u y hu c hc
    obtain ⟨a, as, rfl, ha, has⟩ := unsigned_head hu
    rcases List.mem_cons.mp hc with rfl | hc
    · rcases ha with h | h
      · exact .inl h
      · exact .inr (.inl h)
    · rcases has c hc with h | h
      · exact .inl h
      · exact .inr (.inl h)
  cases h with
  | bare hu => exact key hu
  | plus hu =>
    intro c hc
    rcases List.mem_cons.mp hc with rfl | hc
    · exact .inr (.inr (.inl rfl))
    · exact key hu c hc
  | minus hu =>
    intro c hc
    rcases List.mem_cons.mp hc with rfl | hc
    · exact .inr (.inr (.inr rfl))
    · exact key hu c hc

theorem decimal_no_letter {s : Str} {x : ℚ} (h : XsdDecimal s x) : 'e' ∉ s ∧ 'E' ∉ s := by
  constructor
  · intro hm
    rcases decimal_chars h _ hm with hd | hd | hd | hd
    · exact hd.ne 'e' (by decide) rfl
    all_goals exact absurd hd (by decide)
  · intro hm
    rcases decimal_chars h _ hm with hd | hd | hd | hd
    · exact hd.ne 'E' (by decide) rfl
    all_goals exact absurd hd (by decide)

/-- A number in digits without power of ten: `n` digits, the point after `p` of them. -/
theorem fixed_inner (d : Dec) (p : Nat) (hp : (p : Int) = (natStr d.coeff).length + d.exp) (hle : d.exp ≤ 0) :
    XsdDecimal ((if d.neg then ['-'] else []) ++ ((natStr d.coeff).take p ++ '.' :: (natStr d.coeff).drop p))
      (decVal d) := by
  have h10 : (10 : ℚ) ≠ 0 := by norm_num
  refine decimal_point d.neg ?_ (allFigures_take (allFigures_nat _) p) (allFigures_drop (allFigures_nat _) p) ?_
  · rw [List.take_append_drop]; exact natStr_ne_nil _
  · rw [List.take_append_drop, figures_natStr, List.length_drop]
    unfold decVal
    rw [mul_assoc]
    congr 1
    rw [div_eq_mul_inv, ← zpow_natCast, ← zpow_neg]
    congr 2
    omega

/-- The same with zeros between point and digits. -/
theorem fixed_small (d : Dec) (hle : ((natStr d.coeff).length : Int) + d.exp ≤ 0) :
    XsdDecimal ((if d.neg then ['-'] else []) ++ (['0'] ++ '.' :: (zeros (-((natStr d.coeff).length + d.exp)).toNat ++
      natStr d.coeff))) (decVal d) := by
  refine decimal_point d.neg (by simp) (allFigures_zeros 1) (allFigures_append (allFigures_zeros _) (allFigures_nat _)) ?_
  rw [← List.append_assoc, figures_append, figures_natStr, figures_append, figures_zeros]
  rw [show figures ['0'] = 0 by decide, List.length_append]
  unfold decVal
  rw [mul_assoc]
  congr 1
  rw [div_eq_mul_inv, ← zpow_natCast, ← zpow_neg]
  simp only [Nat.zero_mul, Nat.zero_add, zeros, List.length_replicate]
  congr 2
  omega

/-- The same with zeros after the digits. -/
theorem fixed_large (d : Dec) (k : Nat) (hk : (k : Int) = d.exp) :
    XsdDecimal ((if d.neg then ['-'] else []) ++ ((natStr d.coeff ++ zeros k) ++ '.' :: ['0'])) (decVal d) := by
  refine decimal_point d.neg (by simp) (allFigures_append (allFigures_nat _) (allFigures_zeros _)) (allFigures_zeros 1) ?_
  rw [figures_append, figures_append, figures_natStr, figures_zeros, show figures ['0'] = 0 by decide]
  unfold decVal
  rw [mul_assoc]
  congr 1
  rw [← hk, zpow_natCast]
  simp [zeros]

theorem power_form (d : Dec) (c : Char) (hc : c = 'e' ∨ c = 'E') (t : Str)
    (ht : XsdExponent t ((natStr d.coeff).length + d.exp - 1)) :
    XsdNumber (((if d.neg then ['-'] else []) ++ (match natStr d.coeff with
        | c :: [] => [c]
        | c :: cs => c :: '.' :: cs
        | [] => [])) ++ c :: t) (decVal d) := by
  have h10 : (10 : ℚ) ≠ 0 := by norm_num
  have h1 : 1 ≤ (natStr d.coeff).length := by
    rw [← Nat.not_lt]; intro h
    exact natStr_ne_nil d.coeff (List.length_eq_zero_iff.mp (by omega))
  have := XsdNumber.power (decimal_mantissa d.neg d.coeff) hc ht
  have he : (if d.neg then -1 else 1) * (d.coeff : ℚ) / 10 ^ ((natStr d.coeff).length - 1) *
      10 ^ (((natStr d.coeff).length : Int) + d.exp - 1) = decVal d := by
    unfold decVal
    rw [div_eq_mul_inv, mul_assoc, ← zpow_natCast, ← zpow_neg, ← zpow_add₀ h10]
    congr 2
    omega
  rw [he] at this
  exact this

/-- The text of a finite float. -/
theorem repr_form (d : Dec) :
    (XsdDecimal d.repr (decVal d) ∧
      (decVal d = 0 ∨ (10 : ℚ) ^ (-4 : Int) ≤ |decVal d| ∧ |decVal d| < (10 : ℚ) ^ (16 : Int))) ∨
    (XsdNumber d.repr (decVal d) ∧ 'e' ∈ d.repr ∧
      ¬ (decVal d = 0 ∨ (10 : ℚ) ^ (-4 : Int) ≤ |decVal d| ∧ |decVal d| < (10 : ℚ) ^ (16 : Int))) := by
  by_cases hz : d.coeff = 0
  · have hv : decVal d = 0 := by simp [decVal, hz]
    left
    refine ⟨?_, .inl hv⟩
    have hr : d.repr = (if d.neg then ['-'] else []) ++ (['0'] ++ '.' :: ['0']) := by
      unfold Dec.repr; simp only [if_pos hz]; rfl
    rw [hr, hv]
    exact decimal_point d.neg (by simp) (allFigures_zeros 1) (allFigures_zeros 1)
      (by rw [show figures (['0'] ++ ['0']) = 0 by decide]; simp)
  · have hv : decVal d ≠ 0 := by
      intro h
      have := dec_abs d
      rw [h, abs_zero] at this
      have h2 : (d.coeff : ℚ) * 10 ^ d.exp ≠ 0 := by positivity
      exact h2 this.symm
    have hrange : (10 : ℚ) ^ (-4 : Int) ≤ |decVal d| ∧ |decVal d| < (10 : ℚ) ^ (16 : Int) ↔
        -4 < ((natStr d.coeff).length : Int) + d.exp ∧ ((natStr d.coeff).length : Int) + d.exp ≤ 16 := by
      rw [← not_lt, dec_magnitude d hz, dec_magnitude d hz, Int.not_le]
    rw [hrange]
    by_cases hfix : -4 < ((natStr d.coeff).length : Int) + d.exp ∧ ((natStr d.coeff).length : Int) + d.exp ≤ 16
    · left
      refine ⟨?_, .inr hfix⟩
      unfold Dec.repr
      simp only [if_neg hz, if_pos hfix]
      split
      · next hle =>
        have := fixed_small d hle
        simpa using this
      · next hgt =>
        split
        · next hle =>
          have := fixed_large d (((natStr d.coeff).length : Int) + d.exp - (natStr d.coeff).length).toNat (by omega)
          simpa using this
        · next hlt =>
          have := fixed_inner d (((natStr d.coeff).length : Int) + d.exp).toNat (by omega) (by omega)
          simpa using this
    · right
      have hr : d.repr = ((if d.neg then ['-'] else []) ++ (match natStr d.coeff with
          | c :: [] => [c]
          | c :: cs => c :: '.' :: cs
          | [] => [])) ++ 'e' :: ((if ((natStr d.coeff).length : Int) + d.exp - 1 < 0 then ['-'] else ['+']) ++
            pad2 (((natStr d.coeff).length : Int) + d.exp - 1).natAbs) := by
        unfold Dec.repr
        simp only [if_neg hz, if_neg hfix]
        simp
        generalize natStr d.coeff = l
        rcases l with _ | ⟨_, _ | _⟩ <;> rfl
      rw [hr]
      refine ⟨power_form d 'e' (.inl rfl) _ (exponent_pad _), ?_, ?_⟩
      · exact List.mem_append_right _ (List.mem_cons_self)
      · rintro (h | h)
        · exact hv h
        · exact hfix h

/-- The text of a `decimal.Decimal`. -/
theorem decStr_form (d : Dec) :
    (XsdDecimal d.decStr (decVal d) ∧
      (d.exp ≤ 0 ∧ ((10 : ℚ) ^ (-6 : Int) ≤ |decVal d| ∨ (decVal d = 0 ∧ -6 ≤ d.exp)))) ∨
    (XsdNumber d.decStr (decVal d) ∧ 'E' ∈ d.decStr ∧
      ¬ (d.exp ≤ 0 ∧ ((10 : ℚ) ^ (-6 : Int) ≤ |decVal d| ∨ (decVal d = 0 ∧ -6 ≤ d.exp)))) := by
  have hlen1 : 1 ≤ (natStr d.coeff).length := by
    rw [← Nat.not_lt]; intro h
    exact natStr_ne_nil d.coeff (List.length_eq_zero_iff.mp (by omega))
  have hrange : ((10 : ℚ) ^ (-6 : Int) ≤ |decVal d| ∨ (decVal d = 0 ∧ -6 ≤ d.exp)) ↔
      -6 < ((natStr d.coeff).length : Int) + d.exp := by
    by_cases hz : d.coeff = 0
    · have hv : decVal d = 0 := by simp [decVal, hz]
      rw [hv, hz, show (natStr 0).length = 1 by decide]
      have : ¬ ((10 : ℚ) ^ (-6 : Int) ≤ |0|) := by rw [abs_zero, not_le]; positivity
      simp only [this, false_or, true_and]
      push_cast
      omega
    · have hv : decVal d ≠ 0 := by
        intro h
        have := dec_abs d
        rw [h, abs_zero] at this
        have h2 : (d.coeff : ℚ) * 10 ^ d.exp ≠ 0 := by positivity
        exact h2 this.symm
      rw [← not_lt, dec_magnitude d hz]
      simp only [hv, false_and, or_false]
      omega
  rw [hrange]
  by_cases hfix : d.exp ≤ 0 ∧ -6 < ((natStr d.coeff).length : Int) + d.exp
  · left
    refine ⟨?_, hfix⟩
    unfold Dec.decStr
    by_cases he : d.exp = 0
    · simp only [if_pos he]
      refine decimal_whole d.neg (natStr_ne_nil _) (allFigures_nat _) ?_
      rw [figures_natStr]
      simp [decVal, he]
    · simp only [if_neg he, if_pos hfix]
      split
      · next hle =>
        have := fixed_small d hle
        simpa using this
      · next hgt =>
        have := fixed_inner d (((natStr d.coeff).length : Int) + d.exp).toNat (by omega) hfix.1
        simpa using this
  · right
    have he : d.exp ≠ 0 := by
      intro he
      exact hfix ⟨by omega, by omega⟩
    have hr : d.decStr = ((if d.neg then ['-'] else []) ++ (match natStr d.coeff with
        | c :: [] => [c]
        | c :: cs => c :: '.' :: cs
        | [] => [])) ++ 'E' :: ((if ((natStr d.coeff).length : Int) + d.exp - 1 < 0 then ['-'] else ['+']) ++
          natStr (((natStr d.coeff).length : Int) + d.exp - 1).natAbs) := by
      unfold Dec.decStr
      simp only [if_neg he, if_neg hfix]
      simp
      generalize natStr d.coeff = l
      rcases l with _ | ⟨_, _ | _⟩ <;> rfl
    rw [hr]
    exact ⟨power_form d 'E' (.inr rfl) _ (exponent_nat _), List.mem_append_right _ List.mem_cons_self, hfix⟩

/-- C121: a finite float is written in the form of `xsd:double` and denotes the same number; an infinite one and NaN
are not. -/
theorem C121_double (fa : NumFacets) (f : Flt) (s : Str)
    (h : (SType.decimal fa).xmlvalue (.float f) = .ok (some s)) :
    (∀ x, numVal (.float f) = some x → XsdNumber s x) ∧ (XsdDouble s ↔ ∃ x, numVal (.float f) = some x) := by
  have hs : s = f.repr := by
    have : (SType.decimal fa).xmlvalue (.float f) = .ok (some f.repr) := rfl
    rw [this] at h
    injection h with h; injection h with h; exact h.symm
  subst hs
  cases f with
  | fin d =>
    have hx : XsdNumber d.repr (decVal d) := by
      rcases repr_form d with ⟨h, _⟩ | ⟨h, _⟩
      · exact .plain h
      · exact h
    refine ⟨?_, fun _ => ⟨_, rfl⟩, fun _ => .inl ⟨_, hx⟩⟩
    intro x he
    injection he with he
    rw [← he]; exact hx
  | inf b =>
    refine ⟨fun x he => by simp [numVal] at he, ?_, fun ⟨x, he⟩ => by simp [numVal] at he⟩
    rintro (⟨x, hx⟩ | h)
    · obtain ⟨d, h1, _⟩ := number_reads hx
      rw [float_repr (.inf b) (fun d he => by cases he)] at h1
      cases h1
    · cases b <;> exact absurd h (by decide)
  | nan =>
    refine ⟨fun x he => by simp [numVal] at he, ?_, fun ⟨x, he⟩ => by simp [numVal] at he⟩
    rintro (⟨x, hx⟩ | h)
    · obtain ⟨d, h1, _⟩ := number_reads hx
      rw [float_repr .nan (fun d he => by cases he)] at h1
      cases h1
    · exact absurd h (by decide)

/-- C121: a float is written in the form of `xsd:decimal` only if it is zero or from 0.0001 to below 10000000000000000
in absolute value: all others get an `e` with a power of ten, which `xsd:decimal` does not know. -/
theorem C121_decimal (fa : NumFacets) (f : Flt) (s : Str)
    (h : (SType.decimal fa).xmlvalue (.float f) = .ok (some s)) :
    (∃ x, XsdDecimal s x) ↔
      ∃ x, numVal (.float f) = some x ∧ (x = 0 ∨ (10 : ℚ) ^ (-4 : Int) ≤ |x| ∧ |x| < (10 : ℚ) ^ (16 : Int)) := by
  have hd := C121_double fa f s h
  constructor
  · rintro ⟨x, hx⟩
    obtain ⟨y, hy⟩ := hd.2.mp (.inl ⟨x, .plain hx⟩)
    cases f with
    | fin d =>
      refine ⟨y, hy, ?_⟩
      injection hy with hy
      rcases repr_form d with ⟨_, h⟩ | ⟨_, he, _⟩
      · rw [← hy]; exact h
      · have hs : s = d.repr := by
          injection h with h; injection h with h; exact h.symm
        rw [← hs] at he
        exact absurd he (decimal_no_letter hx).1
    | inf b => simp [numVal] at hy
    | nan => simp [numVal] at hy
  · rintro ⟨x, hx, hr⟩
    cases f with
    | fin d =>
      injection hx with hx
      rcases repr_form d with ⟨h', _⟩ | ⟨_, _, hno⟩
      · have hs : s = d.repr := by
          injection h with h; injection h with h; exact h.symm
        exact ⟨_, hs ▸ h'⟩
      · rw [hx] at hno
        exact absurd hr hno
    | inf b => simp [numVal] at hx
    | nan => simp [numVal] at hx

/-- C121: an int is written in the form of `xsd:decimal`; a bool, which the type accepts as well, is written as a word
that neither `xsd:double` nor the type itself knows. -/
theorem C121_int_bool (fa : NumFacets) :
    (∀ i s, (SType.decimal fa).xmlvalue (.int i) = .ok (some s) → XsdDecimal s i) ∧
    (∀ b s, (SType.decimal fa).xmlvalue (.bool b) = .ok (some s) →
      ¬ XsdDouble s ∧ (SType.decimal fa).pythonvalue (.str s) = .error .valueError) := by
  constructor
  · intro i s h
    have hs : s = intStr i := by injection h with h; injection h with h; exact h.symm
    subst hs
    cases i with
    | ofNat n =>
      have := XsdDecimal.bare (.whole (natStr_ne_nil n) (allFigures_nat n))
      rw [figures_natStr] at this
      simpa [intStr] using this
    | negSucc n =>
      have := XsdDecimal.minus (.whole (natStr_ne_nil (n + 1)) (allFigures_nat (n + 1)))
      rw [figures_natStr] at this
      rw [show ((Int.negSucc n : Int) : ℚ) = -((n + 1 : Nat) : ℚ) by simp [Int.cast_negSucc]]
      exact this
  · intro b s h
    have hs : s = (if b then py"True" else py"False") := by
      injection h with h; injection h with h; rw [← h]; cases b <;> rfl
    have hp : pyFloat s = .error .valueError := by rw [hs]; cases b <;> decide
    constructor
    · rintro (⟨x, hx⟩ | h)
      · obtain ⟨d, h1, _⟩ := number_reads hx
        rw [hp] at h1; cases h1
      · rw [hs] at h
        cases b <;> exact absurd h (by decide)
    · have hn : Atom.str s ≠ .str py"nil" := by rw [hs]; cases b <;> decide
      simp only [SType.pythonvalue, nilOr, if_neg hn, decimalAccept, hp]
      rfl

/-- C121: a `decimal.Decimal` is kept as its text, which has the form of `xsd:double` and denotes the same number; it
has that of `xsd:decimal` only if its exponent is not above 0 and it is at least 0.000001 in absolute value, or zero
with at most six places. -/
theorem C121_decimal_object (fa : NumFacets) (d : Dec) (v : Atom) (s : Str)
    (ha : (SType.decimal fa).accept (.decimal d) = .ok v) (h : (SType.decimal fa).xmlvalue v = .ok (some s)) :
    XsdNumber s (decVal d) ∧
    ((∃ x, XsdDecimal s x) ↔
      d.exp ≤ 0 ∧ ((10 : ℚ) ^ (-6 : Int) ≤ |decVal d| ∨ (decVal d = 0 ∧ -6 ≤ d.exp))) := by
  have hv : v = .str d.decStr := by
    simp only [SType.accept, decimalAccept] at ha
    cases hc : checkRestrictions fa (.str d.decStr) with
    | error e => rw [hc] at ha; cases ha
    | ok u =>
      rw [hc] at ha
      injection ha with h2
      exact h2.symm
  subst hv
  have hs : s = d.decStr := by injection h with h; injection h with h; exact h.symm
  subst hs
  rcases decStr_form d with ⟨h1, h2⟩ | ⟨h1, h2, h3⟩
  · exact ⟨.plain h1, fun _ => h2, fun _ => ⟨_, h1⟩⟩
  · exact ⟨h1, fun ⟨x, hx⟩ => absurd h2 (decimal_no_letter hx).2, fun h => absurd h h3⟩

/-! ### Characters -/

theorem number_chars {s : Str} {x : ℚ} (h : XsdNumber s x) : s ≠ [] ∧ ∀ c ∈ s, NumberChar c := by
  have dec : ∀ {s x}, XsdDecimal s x → s ≠ [] ∧ ∀ c ∈ s, NumberChar c := by
    intro s x h
    refine ⟨?_, fun c hc => ?_⟩
    · rintro rfl
      cases h with
      | bare hu => obtain ⟨_, _, h, _⟩ := unsigned_head hu; cases h
    · rcases decimal_chars h c hc with h | h | h | h
      · exact .inl (.inl h)
      · exact .inl (.inr (.inl h))
      · exact .inl (.inr (.inr (.inr (.inl h))))
      · exact .inl (.inr (.inr (.inr (.inr h))))
  cases h with
  | plain h => exact dec h
  | @power _ _ c t _ h hc ht =>
    refine ⟨by simp, fun y hy => ?_⟩
    rcases List.mem_append.mp hy with hy | hy
    · exact (dec h).2 y hy
    · rcases List.mem_cons.mp hy with rfl | hy
      · rcases hc with rfl | rfl
        · exact .inl (.inr (.inr (.inl rfl)))
        · exact .inr rfl
      · exact exponent_chars ht y hy

theorem repr_number (d : Dec) : XsdNumber d.repr (decVal d) := by
  rcases repr_form d with ⟨h, _⟩ | ⟨h, _⟩
  · exact .plain h
  · exact h

/-! ### Concrete cases -/

/-- `+.5E1` denotes 5 and is read as the float 5.0; the field then writes `5.0`. -/
example : XsdNumber py"+.5E1" 5 := by
  have h : XsdNumber (('+' :: ([] ++ '.' :: ['5'])) ++ 'E' :: ['1']) (((figures ([] ++ ['5']) : Nat) : ℚ) / 10 ^ 1 * 10 ^ ((figures ['1'] : Nat) : Int)) :=
    .power (.plus (.point (a := []) (b := ['5']) (by simp) (by intro c hc; cases hc)
      (by intro c hc; simp at hc; subst hc; decide))) (.inr rfl)
      (.bare (by simp) (by intro c hc; simp at hc; subst hc; decide))
  have he : ((figures ([] ++ ['5']) : Nat) : ℚ) / 10 ^ 1 * 10 ^ ((figures ['1'] : Nat) : Int) = 5 := by
    rw [show figures ([] ++ ['5']) = 5 by decide, show figures ['1'] = 1 by decide]; norm_num
  rw [he] at h
  exact h
example : (SType.decimal {}).pythonvalue (.str py"+.5E1") = .ok (.float (.fin ⟨false, 5, 0⟩)) ∧
    (SType.decimal {}).xmlvalue (.float (.fin ⟨false, 5, 0⟩)) = .ok (some py"5.0") := ⟨by rfl, by rfl⟩

/-- A Decimal field accepts 0.00001 and 10^16, and writes texts which are no `xsd:decimal`. -/
example : (SType.decimal {}).pythonvalue (.str py"0.00001") = .ok (.float (.fin ⟨false, 1, -5⟩)) ∧
    (SType.decimal {}).xmlvalue (.float (.fin ⟨false, 1, -5⟩)) = .ok (some py"1e-05") ∧ (∀ x, ¬ XsdDecimal py"1e-05" x) :=
  ⟨by rfl, by rfl, fun _ h => (decimal_no_letter h).1 (by decide)⟩
example : (SType.decimal {}).xmlvalue (.float (.fin ⟨true, 1, 16⟩)) = .ok (some py"-1e+16") := by rfl

/-- An infinite float is read from a valid text and written as one that is not. -/
example : (SType.decimal {}).pythonvalue (.str py"INF") = .ok (.float (.inf false)) ∧
    (SType.decimal {}).xmlvalue (.float (.inf false)) = .ok (some py"inf") ∧ ¬ XsdDouble py"inf" := by
  refine ⟨by rfl, by rfl, ?_⟩
  intro h
  obtain ⟨x, hx⟩ := (C121_double {} (.inf false) _ rfl).2.mp h
  simp [numVal] at hx

/-- `decimal.Decimal('1E+3')` is 1000, kept and written as `1E+3`. -/
example : (SType.decimal {}).accept (.decimal ⟨false, 1, 3⟩) = .ok (.str py"1E+3") ∧
    (SType.decimal {}).xmlvalue (.str py"1E+3") = .ok (some py"1E+3") := ⟨by rfl, by rfl⟩

end Soapfish
