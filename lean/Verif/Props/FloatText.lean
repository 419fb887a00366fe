import Verif.Props.Numerals
import Verif.Spec.FloatText
/-!
C128: which texts a Decimal, Double or Float field reads, and as what.
-/
namespace Soapfish
open Spec

/-- What follows a run of digits, with and without underscores. -/
def AfterDigits (r' r : Str) : Prop :=
  (r' = [] ∧ r = []) ∨
    ∃ c r1' r1, r' = c :: r1' ∧ r = c :: r1 ∧ uniDigit? c = none ∧ c ≠ '_' ∧ dropUnderscores false r1' = some r1

/-- Digits with underscores, given whether a digit precedes. -/
def DigitsAfter : Bool → Str → List Nat → Prop
  | true => IntTail
  | false => MaybeDigits

theorem digitsAfter_nil (b : Bool) : DigitsAfter b [] [] := by
  cases b
  · exact .inl ⟨rfl, rfl⟩
  · exact .nil

theorem underscore_not_digit : uniDigit? '_' = none := by decide

theorem underscores_cons {c : Char} (hc : c ≠ '_') (b : Bool) (cs : Str) :
    dropUnderscores b (c :: cs) = (dropUnderscores (uniDigit? c).isSome cs).map (c :: ·) := by
  rw [dropUnderscores.eq_def]
  simp only [if_neg hc]

theorem underscores_split (s : Str) : ∀ (b : Bool) (p r : Str) (ds : List Nat), dropUnderscores b s = some (p ++ r) →
    Digits p ds → (∀ c, r.head? = some c → uniDigit? c = none) →
    ∃ p' r', s = p' ++ r' ∧ DigitsAfter b p' ds ∧ AfterDigits r' r := by
  induction s with
  | nil =>
    intro b p r ds h hp _
    simp only [dropUnderscores, Option.some.injEq] at h
    have h := h.symm
    rw [List.append_eq_nil_iff] at h
    obtain ⟨rfl, rfl⟩ := h
    cases hp
    exact ⟨[], [], rfl, digitsAfter_nil b, .inl ⟨rfl, rfl⟩⟩
  | cons c cs ih =>
    intro b p r ds h hp hr
    by_cases hc : c = '_'
    · subst hc
      cases cs with
      | nil => simp [dropUnderscores] at h
      | cons c2 cs2 =>
        rw [dropUnderscores, if_pos rfl] at h
        cases hb : b with
        | false => simp [hb] at h
        | true =>
          simp only [hb, Bool.true_and] at h
          cases hd : uniDigit? c2 with
          | none => simp [hd] at h
          | some d =>
            simp only [hd, Option.isSome_some, if_true] at h
            have h0 := h
            obtain ⟨p', r', he, hrun, haft⟩ := ih false p r ds h hp hr
            rcases hrun with ⟨rfl, rfl⟩ | hrun
            · cases hp
              have hc2 : c2 ≠ '_' := by rintro rfl; rw [underscore_not_digit] at hd; cases hd
              rw [underscores_cons hc2] at h0
              rw [List.nil_append, Option.map_eq_some_iff] at h0
              obtain ⟨u, _, hu⟩ := h0
              rw [hr c2 (by rw [← hu]; rfl)] at hd
              cases hd
            · cases hrun with
              | @mk c3 d3 s3 ds3 hd3 ht =>
                refine ⟨'_' :: c3 :: s3, r', by rw [he]; rfl, ?_, haft⟩
                exact IntTail.underscore hd3 ht
    · have h0 := h
      rw [underscores_cons hc, Option.map_eq_some_iff] at h
      obtain ⟨u, hu, he⟩ := h
      cases hp with
      | nil =>
        rw [List.nil_append] at he
        have hcn := hr c (by rw [← he]; rfl)
        refine ⟨[], c :: cs, rfl, digitsAfter_nil b, .inr ⟨c, cs, u, rfl, he.symm, hcn, hc, ?_⟩⟩
        rw [hcn] at hu
        exact hu
      | @cons c1 d p2 ds2 hd hp2 =>
        rw [List.cons_append] at he
        injection he with hce hue
        subst hce
        rw [hd, hue] at hu
        obtain ⟨p', r', he', hrun, haft⟩ := ih true p2 r ds2 hu hp2 hr
        refine ⟨c :: p', r', by rw [he']; rfl, ?_, haft⟩
        cases b
        · exact .inr (.mk hd hrun)
        · exact IntTail.digit hd hrun

theorem afterDigits_drop {r' r : Str} (h : AfterDigits r' r) (b : Bool) : dropUnderscores b r' = some r := by
  rcases h with ⟨rfl, rfl⟩ | ⟨c, r1', r1, rfl, rfl, hd, hu, h⟩
  · rfl
  · rw [underscores_cons hu, hd]
    simp [h]

theorem tail_join {p' : Str} {ds : List Nat} (h : IntTail p' ds) {r' r : Str} (hr : AfterDigits r' r) :
    ∃ p, Digits p ds ∧ ∀ b, (b = true ∨ ∀ c, p'.head? = some c → c ≠ '_') →
      dropUnderscores b (p' ++ r') = some (p ++ r) := by
  induction h with
  | nil => exact ⟨[], .nil, fun b _ => afterDigits_drop hr b⟩
  | @digit c d s ds hd ht ih =>
    obtain ⟨p, hp, hj⟩ := ih
    refine ⟨c :: p, .cons hd hp, fun b _ => ?_⟩
    have hc : c ≠ '_' := by rintro rfl; rw [underscore_not_digit] at hd; cases hd
    rw [List.cons_append, underscores_cons hc, hd]
    simp [hj true (.inl rfl)]
  | @underscore c d s ds hd ht ih =>
    obtain ⟨p, hp, hj⟩ := ih
    refine ⟨c :: p, .cons hd hp, fun b hb => ?_⟩
    have hc : c ≠ '_' := by rintro rfl; rw [underscore_not_digit] at hd; cases hd
    rcases hb with rfl | hb
    · rw [List.cons_append, List.cons_append, dropUnderscores, if_pos rfl]
      simp only [hd, Option.isSome_some, Bool.and_self, if_true]
      rw [underscores_cons hc, hd]
      simp [hj true (.inl rfl)]
    · exact absurd rfl (hb '_' rfl)

theorem maybe_join {p' : Str} {ds : List Nat} (h : MaybeDigits p' ds) {r' r : Str} (hr : AfterDigits r' r) (b : Bool) :
    ∃ p, Digits p ds ∧ dropUnderscores b (p' ++ r') = some (p ++ r) := by
  rcases h with ⟨rfl, rfl⟩ | h
  · exact ⟨[], .nil, afterDigits_drop hr b⟩
  · cases h with
    | @mk c d s ds hd ht =>
      obtain ⟨p, hp, hj⟩ := tail_join (.digit hd ht) hr
      refine ⟨p, hp, hj b (.inr ?_)⟩
      intro x hx
      simp at hx
      rintro rfl
      rw [hx, underscore_not_digit] at hd
      cases hd

/-- A digit-free first character survives. -/
theorem underscores_head {b : Bool} {s x : Str} {c : Char} (h : dropUnderscores b s = some (c :: x))
    (hc : uniDigit? c = none) : ∃ x', s = c :: x' ∧ dropUnderscores false x' = some x := by
  obtain ⟨p', r', rfl, hrun, haft⟩ := underscores_split s b [] (c :: x) [] h .nil (by
    intro y hy; simp at hy; rw [← hy]; exact hc)
  have hp : p' = [] := by
    cases b
    · rcases hrun with ⟨h, _⟩ | h
      · exact h
      · cases h
    · cases hrun; rfl
  subst hp
  rcases haft with ⟨_, h⟩ | ⟨c', r1', r1, rfl, he, _, _, h⟩
  · cases h
  · injection he with h1 h2
    subst h1; subst h2
    exact ⟨r1', rfl, h⟩

/-- All of an underscored text is digits. -/
theorem digits_whole {x' x : Str} {b : Bool} (h : dropUnderscores b x' = some x) {ds : List Nat} (hb : b = false)
    (ht : takeDigits x = (ds, [])) (hne : ds ≠ []) : IntDigits x' ds := by
  subst hb
  obtain ⟨p, hp, hd, _⟩ := takeDigits_spec x
  rw [ht] at hp hd
  simp only [List.append_nil] at hp
  subst hp
  obtain ⟨p', r', rfl, hrun, haft⟩ := underscores_split x' false x [] ds (by simpa using h) hd (by simp)
  rcases haft with ⟨rfl, _⟩ | ⟨c', r1', r1, _, he, _, _, _⟩
  · rw [List.append_nil]
    rcases hrun with ⟨_, h⟩ | h
    · exact absurd h hne
    · exact h
  · cases he

theorem splitSign_cases (s : Str) :
    (∃ x, s = '-' :: x ∧ splitSign s = (true, x)) ∨ (∃ x, s = '+' :: x ∧ splitSign s = (false, x)) ∨
      splitSign s = (false, s) := by
  unfold splitSign
  split
  · exact .inl ⟨_, rfl, rfl⟩
  · exact .inr (.inl ⟨_, rfl, rfl⟩)
  · exact .inr (.inr rfl)

theorem power_sound {r' r : Str} {e : Int} (h : AfterDigits r' r) (he : floatExp r = some e) : FloatPower r' e := by
  rcases h with ⟨rfl, rfl⟩ | ⟨c, r1', r1, rfl, rfl, hd, hu, h⟩
  · simp only [floatExp, Option.some.injEq] at he
    subst he; exact .none
  · rw [floatExp.eq_def] at he
    dsimp only at he
    split at he
    · next hc =>
      rcases splitSign_cases r1 with ⟨x, rfl, hs⟩ | ⟨x, rfl, hs⟩ | hs <;> rw [hs] at he
      · obtain ⟨x', rfl, hx⟩ := underscores_head h (by decide)
        dsimp only at he
        cases ht : takeDigits x with
        | mk ds rest =>
          rw [ht] at he
          cases ds with
          | nil => simp at he
          | cons a as =>
            cases rest with
            | cons _ _ => simp at he
            | nil =>
              simp only [if_true, Option.some.injEq] at he
              subst he
              exact .minus hc (digits_whole hx rfl ht (by simp))
      · obtain ⟨x', rfl, hx⟩ := underscores_head h (by decide)
        dsimp only at he
        cases ht : takeDigits x with
        | mk ds rest =>
          rw [ht] at he
          cases ds with
          | nil => simp at he
          | cons a as =>
            cases rest with
            | cons _ _ => simp at he
            | nil =>
              simp only [Bool.false_eq_true, if_false, Option.some.injEq] at he
              subst he
              exact .plus hc (digits_whole hx rfl ht (by simp))
      · dsimp only at he
        cases ht : takeDigits r1 with
        | mk ds rest =>
          rw [ht] at he
          cases ds with
          | nil => simp at he
          | cons a as =>
            cases rest with
            | cons _ _ => simp at he
            | nil =>
              simp only [Bool.false_eq_true, if_false, Option.some.injEq] at he
              subst he
              exact .bare hc (digits_whole h rfl ht (by simp))
    · cases he

theorem exp_digits {s : Str} {ds : List Nat} (h : IntDigits s ds) :
    ∃ p a as, dropUnderscores false s = some p ∧ ds = a :: as ∧ takeDigits p = (a :: as, []) ∧
      ∀ c, p.head? = some c → c ≠ '-' ∧ c ≠ '+' := by
  obtain ⟨p, hp, hj⟩ := maybe_join (.inr h) (r' := []) (r := []) (.inl ⟨rfl, rfl⟩) false
  simp only [List.append_nil] at hj
  cases h with
  | @mk c d s ds hd ht =>
    have htd := takeDigits_digits hp [] (by simp)
    rw [List.append_nil] at htd
    refine ⟨p, d, ds, hj, rfl, htd, ?_⟩
    intro x hx
    cases hp with
    | cons hx' _ =>
      simp at hx
      subst hx
      constructor
      · rintro rfl; rw [show uniDigit? '-' = none by decide] at hx'; cases hx'
      · rintro rfl; rw [show uniDigit? '+' = none by decide] at hx'; cases hx'

theorem power_complete {r' : Str} {e : Int} (h : FloatPower r' e) :
    ∃ r, AfterDigits r' r ∧ floatExp r = some e ∧ ∀ c, r.head? = some c → uniDigit? c = none ∧ c ≠ '.' := by
  have hcc : ∀ {c : Char}, c = 'e' ∨ c = 'E' → uniDigit? c = none ∧ c ≠ '_' ∧ c ≠ '.' := by
    rintro c (rfl | rfl) <;> decide
  cases h with
  | none => exact ⟨[], .inl ⟨rfl, rfl⟩, rfl, by simp⟩
  | @bare c s ds hc h =>
    obtain ⟨p, a, as, hj, rfl, htd, hh⟩ := exp_digits h
    refine ⟨c :: p, .inr ⟨c, s, p, rfl, rfl, (hcc hc).1, (hcc hc).2.1, hj⟩, ?_, ?_⟩
    · have hs : splitSign p = (false, p) := by
        unfold splitSign
        split
        · exact absurd rfl (hh _ rfl).1
        · exact absurd rfl (hh _ rfl).2
        · rfl
      simp [floatExp, hc, hs, htd]
    · intro x hx; simp at hx; subst hx; exact ⟨(hcc hc).1, (hcc hc).2.2⟩
  | @plus c s ds hc h =>
    obtain ⟨p, a, as, hj, rfl, htd, hh⟩ := exp_digits h
    refine ⟨c :: '+' :: p, .inr ⟨c, '+' :: s, '+' :: p, rfl, rfl, (hcc hc).1, (hcc hc).2.1, ?_⟩, ?_, ?_⟩
    · rw [underscores_cons (by decide), show uniDigit? '+' = none by decide]; simp [hj]
    · simp [floatExp, hc, splitSign, htd]
    · intro x hx; simp at hx; subst hx; exact ⟨(hcc hc).1, (hcc hc).2.2⟩
  | @minus c s ds hc h =>
    obtain ⟨p, a, as, hj, rfl, htd, hh⟩ := exp_digits h
    refine ⟨c :: '-' :: p, .inr ⟨c, '-' :: s, '-' :: p, rfl, rfl, (hcc hc).1, (hcc hc).2.1, ?_⟩, ?_, ?_⟩
    · rw [underscores_cons (by decide), show uniDigit? '-' = none by decide]; simp [hj]
    · simp [floatExp, hc, splitSign, htd]
    · intro x hx; simp at hx; subst hx; exact ⟨(hcc hc).1, (hcc hc).2.2⟩

theorem norm_neg (d : Dec) : d.norm.neg = d.neg := by
  unfold Dec.norm
  split <;> rfl

theorem point_val (neg : Bool) (n k : Nat) (e : Int) :
    decVal (Dec.norm ⟨neg, n, e - k⟩) = (if neg then -((n : ℚ) / 10 ^ k) else (n : ℚ) / 10 ^ k) * 10 ^ e := by
  have h10 : (10 : ℚ) ≠ 0 := by norm_num
  rw [norm_val]
  simp only [decVal, zpow_sub₀ h10, zpow_natCast]
  cases neg <;> simp <;> ring

theorem whole_val (neg : Bool) (n : Nat) (e : Int) :
    decVal (Dec.norm ⟨neg, n, e⟩) = (if neg then -(n : ℚ) else (n : ℚ)) * 10 ^ e := by
  rw [norm_val]
  cases neg <;> simp [decVal]

theorem maybe_empty {s : Str} {ds : List Nat} (h : MaybeDigits s ds) : s = [] ↔ ds = [] := by
  rcases h with ⟨rfl, rfl⟩ | h
  · simp
  · cases h; simp

theorem body_sound {u : Str} {neg : Bool} {d : Dec} (h : (dropUnderscores false u).bind (floatBody neg) = some d) :
    ∃ body pow y e, u = body ++ pow ∧ FloatBody body y ∧ FloatPower pow e ∧ d.neg = neg ∧
      decVal d = (if neg then -y else y) * 10 ^ e := by
  rw [Option.bind_eq_some_iff] at h
  obtain ⟨t, ht, hb⟩ := h
  obtain ⟨p, hp, hdig, hhead⟩ := takeDigits_spec t
  unfold floatBody at hb
  cases htd : takeDigits t with
  | mk i r =>
    rw [htd] at hp hdig hhead hb
    dsimp only at hp hdig hhead hb
    rw [hp] at ht
    obtain ⟨p', r', rfl, hrun, haft⟩ := underscores_split u false p r i ht hdig hhead
    have hrun : MaybeDigits p' i := hrun
    split at hb
    · next r1 =>
      rcases haft with ⟨_, h⟩ | ⟨c, r1', r3, rfl, he, _, _, hdu⟩
      · cases h
      · injection he with h1 h2
        subst h1; subst h2
        obtain ⟨q, hq, hdigq, hheadq⟩ := takeDigits_spec r1
        cases htd1 : takeDigits r1 with
        | mk f r2 =>
          rw [htd1] at hq hdigq hheadq hb
          dsimp only at hq hdigq hheadq hb
          rw [hq] at hdu
          obtain ⟨q', r2', rfl, hrunq, haftq⟩ := underscores_split r1' false q r2 f hdu hdigq hheadq
          have hrunq : MaybeDigits q' f := hrunq
          split at hb
          · cases hb
          · next hne =>
            split at hb
            · next e he =>
              injection hb with hb
              subst hb
              refine ⟨p' ++ '.' :: q', r2', _, e, by simp, .point hrun hrunq ?_, power_sound haftq he,
                norm_neg _, point_val _ _ _ _⟩
              intro hnil
              rw [List.append_eq_nil_iff] at hnil
              apply hne
              simp [(maybe_empty hrun).mp hnil.1, (maybe_empty hrunq).mp hnil.2]
            · cases hb
    · split at hb
      · cases hb
      · next hne =>
        split at hb
        · next e he =>
          injection hb with hb
          subst hb
          rcases hrun with ⟨_, h⟩ | hrun
          · exact absurd (by simp [h]) hne
          · exact ⟨p', r', _, e, rfl, .whole hrun, power_sound haft he, norm_neg _, whole_val _ _ _⟩
        · cases hb

theorem body_complete {body pow : Str} {y : ℚ} {e : Int} (hbody : FloatBody body y) (hpow : FloatPower pow e) (neg : Bool) :
    ∃ d, (dropUnderscores false (body ++ pow)).bind (floatBody neg) = some d ∧ d.neg = neg ∧
      decVal d = (if neg then -y else y) * 10 ^ e := by
  obtain ⟨r, haft, hexp, hhead⟩ := power_complete hpow
  cases hbody with
  | @whole _ da hd =>
    obtain ⟨p, hp, hj⟩ := maybe_join (.inr hd) haft false
    have hne : da ≠ [] := by cases hd; simp
    have hpne : p ≠ [] := by rintro rfl; cases hp; exact hne rfl
    exact ⟨_, by rw [hj, Option.bind_some]; exact floatBody_plain neg r e hp hne hhead hexp, norm_neg _, whole_val _ _ _⟩
  | @point a da b db ha hb hne =>
    obtain ⟨q, hq, hjq⟩ := maybe_join hb haft false
    obtain ⟨p, hp, hj⟩ := maybe_join ha (r' := '.' :: (b ++ pow)) (r := '.' :: (q ++ r))
      (.inr ⟨'.', _, _, rfl, rfl, dot_not_digit, by decide, hjq⟩) false
    have h1 := takeDigits_digits hp ('.' :: (q ++ r)) (by intro c hc; simp at hc; subst hc; exact dot_not_digit)
    have h2 := takeDigits_digits hq r (fun c hc => (hhead c hc).1)
    refine ⟨_, ?_, norm_neg ⟨neg, digitsNat (da ++ db), e - db.length⟩, point_val _ _ _ _⟩
    rw [List.append_assoc, List.cons_append, hj, Option.bind_some]
    unfold floatBody
    rw [h1]
    simp only [h2, hexp]
    rw [if_neg]
    simp only [List.isEmpty_iff, Bool.and_eq_true, not_and]
    intro h3 h4
    apply hne
    rw [(maybe_empty ha).mpr h3, (maybe_empty hb).mpr h4]
    rfl

/-! ### White space and signs -/

theorem sign_split (s : Str) : ∃ sign, s = sign ++ (splitSign s).2 ∧ SignText sign (splitSign s).1 := by
  unfold splitSign
  split
  · exact ⟨['-'], rfl, .minus⟩
  · exact ⟨['+'], rfl, .plus⟩
  · exact ⟨[], rfl, .none⟩

theorem sign_join {sign : Str} {neg : Bool} (h : SignText sign neg) (core : Str)
    (hc : ∀ c, core.head? = some c → c ≠ '-' ∧ c ≠ '+') : splitSign (sign ++ core) = (neg, core) := by
  cases h with
  | none =>
    rw [List.nil_append]
    unfold splitSign
    split
    · exact absurd rfl (hc _ rfl).1
    · exact absurd rfl (hc _ rfl).2
    · rfl
  | plus => rfl
  | minus => rfl

theorem framed_self (s : Str) : Framed s (splitSign (strip s)).2 (splitSign (strip s)).1 := by
  obtain ⟨l, r, hs, hl, hr, _, _⟩ := strip_spec s
  obtain ⟨sign, he, hsg⟩ := sign_split (strip s)
  exact ⟨l, sign, r, by rw [← he]; exact hs, hl, hr, hsg⟩

theorem framed_strip {s core : Str} {neg : Bool} (h : Framed s core neg) (hsp : ∀ c ∈ core, isSpace c = false)
    (hc : ∀ c, core.head? = some c → c ≠ '-' ∧ c ≠ '+') : splitSign (strip s) = (neg, core) := by
  obtain ⟨l, sign, r, rfl, hl, hr, hsg⟩ := h
  have hall : ∀ c ∈ sign ++ core, isSpace c = false := by
    intro c hc
    rcases List.mem_append.mp hc with h | h
    · cases hsg
      · cases h
      · simp at h; subst h; decide
      · simp at h; subst h; decide
    · exact hsp c h
  rw [strip_unique hl hr (fun c h => hall c (List.mem_of_head? h)) (fun c h => hall c (List.mem_of_getLast? h))]
  exact sign_join hsg core hc

theorem tail_chars {s ds} (h : IntTail s ds) : ∀ c ∈ s, isSpace c = false := by
  induction h with
  | nil => simp
  | digit hd _ ih =>
    intro x hx
    rcases List.mem_cons.mp hx with rfl | hx
    · exact uniDigit_not_space hd
    · exact ih x hx
  | underscore hd _ ih =>
    intro x hx
    rcases List.mem_cons.mp hx with rfl | hx
    · decide
    · rcases List.mem_cons.mp hx with rfl | hx
      · exact uniDigit_not_space hd
      · exact ih x hx

theorem intDigits_chars {s ds} (h : IntDigits s ds) : ∀ c ∈ s, isSpace c = false := by
  cases h with
  | mk hd ht => exact tail_chars (.digit hd ht)

theorem maybe_chars {s ds} (h : MaybeDigits s ds) : ∀ c ∈ s, isSpace c = false := by
  rcases h with ⟨rfl, _⟩ | h
  · simp
  · exact intDigits_chars h

theorem body_chars {s y} (h : FloatBody s y) : ∀ c ∈ s, isSpace c = false := by
  cases h with
  | whole h => exact intDigits_chars h
  | point ha hb _ =>
    intro c hc
    rcases List.mem_append.mp hc with h | h
    · exact maybe_chars ha c h
    · rcases List.mem_cons.mp h with rfl | h
      · decide
      · exact maybe_chars hb c h

theorem floatPower_chars {s e} (h : FloatPower s e) : ∀ c ∈ s, isSpace c = false := by
  have he : ∀ {c : Char}, c = 'e' ∨ c = 'E' → isSpace c = false := by rintro c (rfl | rfl) <;> decide
  cases h with
  | none => simp
  | bare hc h =>
    intro x hx
    rcases List.mem_cons.mp hx with rfl | hx
    · exact he hc
    · exact intDigits_chars h x hx
  | plus hc h =>
    intro x hx
    rcases List.mem_cons.mp hx with rfl | hx
    · exact he hc
    · rcases List.mem_cons.mp hx with rfl | hx
      · decide
      · exact intDigits_chars h x hx
  | minus hc h =>
    intro x hx
    rcases List.mem_cons.mp hx with rfl | hx
    · exact he hc
    · rcases List.mem_cons.mp hx with rfl | hx
      · decide
      · exact intDigits_chars h x hx

theorem body_head {s y} (h : FloatBody s y) : ∃ c cs, s = c :: cs ∧ (c = '.' ∨ ∃ d, uniDigit? c = some d) := by
  cases h with
  | whole h => cases h with
    | mk hd _ => exact ⟨_, _, rfl, .inr ⟨_, hd⟩⟩
  | @point a da b db ha hb _ =>
    rcases ha with ⟨rfl, _⟩ | h
    · exact ⟨_, _, rfl, .inl rfl⟩
    · cases h with
      | mk hd _ => exact ⟨_, _, rfl, .inr ⟨_, hd⟩⟩

theorem lowerC_inv (c : Char) : lowerC c = c ∨ ∃ n : Fin 26, c = Char.ofNat (65 + n) := by
  unfold lowerC
  split
  · next h =>
    right
    refine ⟨⟨c.toNat - 65, by omega⟩, ?_⟩
    simp only
    rw [show 65 + (c.toNat - 65) = c.toNat by omega]
    exact (Char.ofNat_toNat c).symm
  · exact .inl rfl

theorem letters_not_digits : ∀ n : Fin 26, uniDigit? (Char.ofNat (65 + n)) = none ∧ isSpace (Char.ofNat (65 + n)) = false ∧
    Char.ofNat (65 + n) ≠ '.' ∧ Char.ofNat (65 + n) ≠ '-' ∧ Char.ofNat (65 + n) ≠ '+' := by decide +kernel

/-- A character whose lower case is a letter. -/
theorem lower_letter {c x : Char} (h : lowerC c = x)
    (hx : uniDigit? x = none ∧ isSpace x = false ∧ x ≠ '.' ∧ x ≠ '-' ∧ x ≠ '+') :
    uniDigit? c = none ∧ isSpace c = false ∧ c ≠ '.' ∧ c ≠ '-' ∧ c ≠ '+' := by
  rcases lowerC_inv c with h' | ⟨n, rfl⟩
  · rw [← h', h]; exact hx
  · exact letters_not_digits n

theorem lower_word {w v : Str} (h : lower w = v)
    (hv : ∀ x ∈ v, uniDigit? x = none ∧ isSpace x = false ∧ x ≠ '.' ∧ x ≠ '-' ∧ x ≠ '+') :
    ∀ c ∈ w, uniDigit? c = none ∧ isSpace c = false ∧ c ≠ '.' ∧ c ≠ '-' ∧ c ≠ '+' := by
  intro c hc
  refine lower_letter rfl (hv (lowerC c) ?_)
  rw [← h]
  exact List.mem_map_of_mem hc

theorem words_plain : ∀ v ∈ [py"inf", py"infinity", py"nan"],
    ∀ x ∈ v, uniDigit? x = none ∧ isSpace x = false ∧ x ≠ '.' ∧ x ≠ '-' ∧ x ≠ '+' := by decide +kernel

theorem word_reads {s w : Str} {neg : Bool} (h : Framed s w neg) {v : Str} (hv : v ∈ [py"inf", py"infinity", py"nan"])
    (hw : lower w = v) : splitSign (strip s) = (neg, w) := by
  have hch := lower_word hw (words_plain v hv)
  exact framed_strip h (fun c hc => (hch c hc).2.1) (fun c hc => (hch c (List.mem_of_head? hc)).2.2.2)

theorem number_word {body pow : Str} {y : ℚ} (h : FloatBody body y) {v : Str}
    (hv : v ∈ [py"inf", py"infinity", py"nan"]) : lower (body ++ pow) ≠ v := by
  intro hw
  have hch := lower_word hw (words_plain v hv)
  obtain ⟨c, cs, rfl, hc⟩ := body_head h
  have := hch c (by simp)
  rcases hc with rfl | ⟨d, hd⟩
  · exact this.2.2.1 rfl
  · rw [this.1] at hd; cases hd

theorem number_split {s body pow : Str} {neg : Bool} {y : ℚ} {e : Int} (h : Framed s (body ++ pow) neg)
    (hb : FloatBody body y) (hp : FloatPower pow e) : splitSign (strip s) = (neg, body ++ pow) := by
  refine framed_strip h ?_ ?_
  · intro c hc
    rcases List.mem_append.mp hc with hc | hc
    · exact body_chars hb c hc
    · exact floatPower_chars hp c hc
  · intro c hc
    obtain ⟨c', cs, rfl, hc'⟩ := body_head hb
    simp at hc
    subst hc
    rcases hc' with rfl | ⟨d, hd⟩
    · decide
    · constructor
      · rintro rfl; rw [show uniDigit? '-' = none by decide] at hd; cases hd
      · rintro rfl; rw [show uniDigit? '+' = none by decide] at hd; cases hd

theorem pyFloat_text (s : Str) :
    (∃ neg x d, NumberText s neg x ∧ d.neg = neg ∧ decVal d = x ∧ pyFloat s = .ok (.fin d)) ∨
    (∃ neg, InfinityText s neg ∧ pyFloat s = .ok (.inf neg)) ∨
    (NanText s ∧ pyFloat s = .ok .nan) ∨
    ((∀ neg x, ¬ NumberText s neg x) ∧ (∀ neg, ¬ InfinityText s neg) ∧ ¬ NanText s ∧
      pyFloat s = .error .valueError) := by
  have hf := framed_self s
  unfold pyFloat
  cases hsp : splitSign (strip s) with
  | mk neg r =>
    rw [hsp] at hf
    dsimp only at hf
    simp only [hsp]
    split
    · next h => exact .inr (.inl ⟨neg, ⟨r, hf, h⟩, rfl⟩)
    · next h =>
      split
      · next h' => exact .inr (.inr (.inl ⟨⟨r, neg, hf, h'⟩, rfl⟩))
      · next h' =>
        split
        · next d hd =>
          obtain ⟨body, pow, y, e, rfl, hb, hp, hn, hv⟩ := body_sound hd
          exact .inl ⟨neg, _, d, ⟨body, pow, y, e, hf, hb, hp, rfl⟩, hn, hv, rfl⟩
        · next hd =>
          refine .inr (.inr (.inr ⟨?_, ?_, ?_, rfl⟩))
          · rintro neg' x ⟨body, pow, y, e, hf', hb, hp, _⟩
            rw [number_split hf' hb hp] at hsp
            injection hsp with h1 h2
            subst h1; subst h2
            obtain ⟨d, hd', _⟩ := body_complete hb hp neg'
            rw [hd] at hd'; cases hd'
          · rintro neg' ⟨w, hf', hw⟩
            have : splitSign (strip s) = (neg', w) := by
              rcases hw with hw | hw
              · exact word_reads hf' (by simp) hw
              · exact word_reads hf' (by simp) hw
            rw [this] at hsp
            injection hsp with h1 h2
            subst h1; subst h2
            exact h hw
          · rintro ⟨w, neg', hf', hw⟩
            rw [word_reads hf' (by simp) hw] at hsp
            injection hsp with h1 h2
            subst h1; subst h2
            exact h' hw

/-- The meaning of a text is unique. -/
theorem number_unique {s : Str} {neg : Bool} {x : ℚ} (h : NumberText s neg x) :
    ∃ d, d.neg = neg ∧ decVal d = x ∧ pyFloat s = .ok (.fin d) := by
  obtain ⟨body, pow, y, e, hf, hb, hp, rfl⟩ := h
  obtain ⟨d, hd, hn, hv⟩ := body_complete hb hp neg
  refine ⟨d, hn, hv, ?_⟩
  unfold pyFloat
  simp only [number_split hf hb hp]
  rw [if_neg, if_neg, hd]
  · exact number_word hb (by simp)
  · rintro (h | h)
    · exact number_word hb (by simp) h
    · exact number_word hb (by simp) h

/-- C128: reading any text yields None (for 'nil'), or the float the text denotes in Python if it satisfies all
facets, as if that float had been assigned, or ValueError. -/
theorem C128_decimal_text (fa : NumFacets) (s : Str) :
    let t := SType.decimal fa
    (s = py"nil" ∧ t.pythonvalue (.str s) = .ok .none) ∨
    (∃ neg x d, NumberText s neg x ∧ d.neg = neg ∧ decVal d = x ∧
      t.pythonvalue (.str s) = t.accept (.float (.fin d))) ∨
    (∃ neg, InfinityText s neg ∧ t.pythonvalue (.str s) = t.accept (.float (.inf neg))) ∨
    (NanText s ∧ t.pythonvalue (.str s) = t.accept (.float .nan)) ∨
    (s ≠ py"nil" ∧ (∀ neg x, ¬ NumberText s neg x) ∧ (∀ neg, ¬ InfinityText s neg) ∧ ¬ NanText s ∧
      t.pythonvalue (.str s) = .error .valueError) := by
  intro t
  by_cases hn : s = py"nil"
  · subst hn; exact .inl ⟨rfl, rfl⟩
  · right
    have hn' : Atom.str s ≠ .str py"nil" := fun h => hn (by injection h)
    have hpy : t.pythonvalue (.str s) = (pyFloat s >>= fun f => t.accept (.float f)) := by
      simp only [t, SType.pythonvalue, nilOr, if_neg hn', decimalAccept, SType.accept]
    rcases pyFloat_text s with ⟨neg, x, d, h1, h2, h3, h4⟩ | ⟨neg, h1, h2⟩ | ⟨h1, h2⟩ | ⟨h1, h2, h3, h4⟩
    · exact .inl ⟨neg, x, d, h1, h2, h3, by rw [hpy, h4]; rfl⟩
    · exact .inr (.inl ⟨neg, h1, by rw [hpy, h2]; rfl⟩)
    · exact .inr (.inr (.inl ⟨h1, by rw [hpy, h2]; rfl⟩))
    · exact .inr (.inr (.inr ⟨hn, h1, h2, h3, by rw [hpy, h4]; rfl⟩))

/-- C128: a text has at most one meaning, so no case of the theorem before hides another. -/
theorem C128_one_meaning (s : Str) :
    (∀ neg x neg' x', NumberText s neg x → NumberText s neg' x' → neg = neg' ∧ x = x') ∧
    (∀ neg x neg', NumberText s neg x → ¬ InfinityText s neg') ∧ (∀ neg x, NumberText s neg x → ¬ NanText s) ∧
    (∀ neg neg', InfinityText s neg → InfinityText s neg' → neg = neg') ∧ (∀ neg, InfinityText s neg → ¬ NanText s) := by
  have hinf : ∀ neg, InfinityText s neg → ∃ w, splitSign (strip s) = (neg, w) ∧ (lower w = py"inf" ∨ lower w = py"infinity") := by
    rintro neg ⟨w, hf, hw⟩
    refine ⟨w, ?_, hw⟩
    rcases hw with hw | hw
    · exact word_reads hf (by simp) hw
    · exact word_reads hf (by simp) hw
  have hnan : NanText s → ∃ neg w, splitSign (strip s) = (neg, w) ∧ lower w = py"nan" := by
    rintro ⟨w, neg, hf, hw⟩
    exact ⟨neg, w, word_reads hf (by simp) hw, hw⟩
  refine ⟨?_, ?_, ?_, ?_, ?_⟩
  · intro neg x neg' x' h h'
    obtain ⟨d, hn, hv, hp⟩ := number_unique h
    obtain ⟨d', hn', hv', hp'⟩ := number_unique h'
    rw [hp] at hp'
    injection hp' with hp'
    injection hp' with hp'
    subst hp'
    exact ⟨hn.symm.trans hn', hv.symm.trans hv'⟩
  · rintro neg x neg' ⟨body, pow, y, e, hf, hb, hp, _⟩ h'
    obtain ⟨w, h1, h2⟩ := hinf neg' h'
    rw [number_split hf hb hp] at h1
    injection h1 with _ h1
    subst h1
    rcases h2 with h2 | h2
    · exact number_word hb (by simp) h2
    · exact number_word hb (by simp) h2
  · rintro neg x ⟨body, pow, y, e, hf, hb, hp, _⟩ h'
    obtain ⟨neg', w, h1, h2⟩ := hnan h'
    rw [number_split hf hb hp] at h1
    injection h1 with _ h1
    subst h1
    exact number_word hb (by simp) h2
  · intro neg neg' h h'
    obtain ⟨w, h1, _⟩ := hinf neg h
    obtain ⟨w', h1', _⟩ := hinf neg' h'
    rw [h1] at h1'
    injection h1'
  · intro neg h h'
    obtain ⟨w, h1, h2⟩ := hinf neg h
    obtain ⟨neg', w', h1', h2'⟩ := hnan h'
    rw [h1] at h1'
    injection h1' with _ h
    subst h
    rw [h2'] at h2
    revert h2; decide

/-- Arabic-Indic digits, underscores, a power of ten and white space: minus one and a half million. -/
example : NumberText (py" -1_5e٥\n") true (-1500000) :=
  ⟨py"1_5", py"e٥", 15, 5,
    ⟨py" ", py"-", py"\n", rfl, by decide, by decide, .minus⟩,
    .whole (.mk (d := 1) (by decide) (.underscore (d := 5) (by decide) .nil)),
    .bare (.inl rfl) (.mk (d := 5) (by decide) .nil), by norm_num⟩

/-- A word XML Schema does not know is read as infinity; a comma makes a text no number. -/
example : (SType.decimal {}).pythonvalue (.str py"+Infinity") = .ok (.float (.inf false)) ∧
    (SType.decimal {}).pythonvalue (.str py"1,5") = .error .valueError ∧
    (SType.decimal {}).pythonvalue (.str py"1__5") = .error .valueError := by decide +kernel

end Soapfish
