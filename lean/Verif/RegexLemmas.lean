import Verif.Regex
/-! Correctness of the derivative matcher with respect to the language of an expression. -/
namespace Soapfish
namespace Re

theorem nullable_iff (r : Re) : r.nullable = true ↔ r.Lang [] := by
  constructor
  · intro h
    induction r with
    | empty => simp [nullable] at h
    | eps => exact .eps
    | cls p => simp [nullable] at h
    | cat a b iha ihb =>
      simp [nullable] at h
      exact Lang.cat (s := []) (t := []) (iha h.1) (ihb h.2)
    | alt a b iha ihb =>
      simp [nullable] at h
      rcases h with h | h
      · exact .altL (iha h)
      · exact .altR (ihb h)
    | star a _ => exact .starNil
  · intro h
    generalize hs : ([] : Str) = s at h
    induction h with
    | eps => rfl
    | cls => cases hs
    | cat _ _ iha ihb =>
      have := List.append_eq_nil_iff.1 hs.symm
      simp [nullable, iha this.1.symm, ihb this.2.symm]
    | altL _ ih => simp [nullable, ih hs]
    | altR _ ih => simp [nullable, ih hs]
    | starNil => rfl
    | starCons => rfl

theorem deriv_sound (c : Char) (r : Re) : ∀ s, (r.deriv c).Lang s → r.Lang (c :: s) := by
  induction r with
  | empty => intro s h; cases h
  | eps => intro s h; cases h
  | cls p =>
    intro s h
    simp only [deriv] at h
    split at h
    · next hp => cases h; exact .cls hp
    · cases h
  | cat a b iha ihb =>
    intro s h
    simp only [deriv] at h
    split at h
    · next hn =>
      cases h with
      | altL h =>
        cases h with
        | cat h1 h2 => exact Lang.cat (s := c :: _) (iha _ h1) h2
      | altR h => exact Lang.cat (s := []) ((nullable_iff a).1 hn) (ihb _ h)
    · cases h with
      | cat h1 h2 => exact Lang.cat (s := c :: _) (iha _ h1) h2
  | alt a b iha ihb =>
    intro s h
    cases h with
    | altL h => exact .altL (iha _ h)
    | altR h => exact .altR (ihb _ h)
  | star a iha =>
    intro s h
    cases h with
    | cat h1 h2 => exact Lang.starCons (s := c :: _) (iha _ h1) h2

theorem deriv_complete (c : Char) (r : Re) (s : Str) (h : r.Lang (c :: s)) : (r.deriv c).Lang s := by
  generalize ht : c :: s = t at h
  induction h generalizing s with
  | eps => cases ht
  | cls hp => cases ht; simp [deriv, hp]; exact .eps
  | @cat a b u v hu hv iha ihb =>
    simp only [deriv]
    cases u with
    | nil =>
      have hn := (nullable_iff a).2 hu
      simp only [hn, if_true]
      exact .altR (ihb s ht)
    | cons c' u' =>
      simp only [List.cons_append, List.cons.injEq] at ht
      obtain ⟨rfl, rfl⟩ := ht
      have := iha u' rfl
      split
      · exact .altL (.cat this hv)
      · exact .cat this hv
  | altL _ ih => exact .altL (ih s ht)
  | altR _ ih => exact .altR (ih s ht)
  | starNil => cases ht
  | @starCons a u v hu hv iha ihb =>
    cases u with
    | nil => exact ihb s ht
    | cons c' u' =>
      simp only [List.cons_append, List.cons.injEq] at ht
      obtain ⟨rfl, rfl⟩ := ht
      exact .cat (iha u' rfl) hv

theorem deriv_iff (c : Char) (r : Re) (s : Str) : (r.deriv c).Lang s ↔ r.Lang (c :: s) :=
  ⟨deriv_sound c r s, deriv_complete c r s⟩

theorem full_iff (r : Re) (s : Str) : r.full s = true ↔ r.Lang s := by
  induction s generalizing r with
  | nil => exact nullable_iff r
  | cons c cs ih => simp only [full]; rw [ih, deriv_iff]

theorem pre_iff (r : Re) (s : Str) : r.pre s = true ↔ ∃ u v, s = u ++ v ∧ r.Lang u := by
  induction s generalizing r with
  | nil =>
    simp only [pre, nullable_iff]
    constructor
    · intro h; exact ⟨[], [], rfl, h⟩
    · rintro ⟨u, v, h, hl⟩
      have := List.append_eq_nil_iff.1 h.symm
      rw [this.1] at hl; exact hl
  | cons c cs ih =>
    simp only [pre, Bool.or_eq_true, nullable_iff, ih]
    constructor
    · rintro (h | ⟨u, v, rfl, h⟩)
      · exact ⟨[], c :: cs, rfl, h⟩
      · exact ⟨c :: u, v, rfl, (deriv_iff c r u).1 h⟩
    · rintro ⟨u, v, h, hl⟩
      cases u with
      | nil => exact .inl hl
      | cons c' u' =>
        simp only [List.cons_append, List.cons.injEq] at h
        obtain ⟨rfl, rfl⟩ := h
        exact .inr ⟨u', v, rfl, (deriv_iff c r u').2 hl⟩

theorem dollar_iff (r : Re) (s : Str) :
    r.dollar s = true ↔ r.Lang s ∨ ∃ t, s = t ++ ['\n'] ∧ r.Lang t := by
  simp only [dollar, Bool.or_eq_true, Bool.and_eq_true, full_iff, beq_iff_eq]
  constructor
  · rintro (h | ⟨h1, h2⟩)
    · exact .inl h
    · refine .inr ⟨s.dropLast, ?_, h2⟩
      cases s with
      | nil => simp at h1
      | cons c cs =>
        have hne : c :: cs ≠ [] := by simp
        rw [List.getLast?_eq_some_getLast hne] at h1
        simp only [Option.some.injEq] at h1
        rw [← h1]
        exact (List.dropLast_concat_getLast hne).symm
  · rintro (h | ⟨t, rfl, h⟩)
    · exact .inl h
    · exact .inr (by simp [h])

end Re
end Soapfish
