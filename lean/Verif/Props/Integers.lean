import Verif.SimpleLemmas
import Verif.Spec.Integers
/-! C01–C04: integer types. -/
namespace Soapfish
open Spec

/-! ### Helper lemmas -/

theorem checkBound_maxExclusive (v : Int) (b : Option Int) :
    checkBound (fun b => b.leE (.int v)) (b.map .int) = if ¬ (∃ x, b = some x ∧ x ≤ v) then .ok () else .error .valueError := by
  cases b with
  | none => simp [checkBound]
  | some x => simp [checkBound, int_leE, bind_ok, raiseIf_eq]

theorem checkBound_maxInclusive (v : Int) (b : Option Int) :
    checkBound (fun b => b.ltE (.int v)) (b.map .int) = if ¬ (∃ x, b = some x ∧ x < v) then .ok () else .error .valueError := by
  cases b with
  | none => simp [checkBound]
  | some x => simp [checkBound, int_ltE, bind_ok, raiseIf_eq]

theorem checkBound_minExclusive (v : Int) (b : Option Int) :
    checkBound (fun b => (Atom.int v).leE b) (b.map .int) = if ¬ (∃ x, b = some x ∧ v ≤ x) then .ok () else .error .valueError := by
  cases b with
  | none => simp [checkBound]
  | some x => simp [checkBound, int_leE, bind_ok, raiseIf_eq]

theorem checkBound_minInclusive (v : Int) (b : Option Int) :
    checkBound (fun b => (Atom.int v).ltE b) (b.map .int) = if ¬ (∃ x, b = some x ∧ v < x) then .ok () else .error .valueError := by
  cases b with
  | none => simp [checkBound]
  | some x => simp [checkBound, int_ltE, bind_ok, raiseIf_eq]

theorem any_eqv_int (v : Int) (l : List Int) : (l.map Atom.int).any (fun x => (Atom.int v).eqv x) = decide (v ∈ l) := by
  induction l with
  | nil => simp
  | cons a as ih =>
    simp only [List.map_cons, List.any_cons, ih, int_eqv]
    rw [Bool.eq_iff_iff]
    simp

instance (v : Int) (o : Option Int) : Decidable (AtLeast v o) := by unfold AtLeast; cases o <;> infer_instance
instance (v : Int) (o : Option Int) : Decidable (AtMost v o) := by unfold AtMost; cases o <;> infer_instance
instance (v : Int) (o : Option Int) : Decidable (Above v o) := by unfold Above; cases o <;> infer_instance
instance (v : Int) (o : Option Int) : Decidable (Below v o) := by unfold Below; cases o <;> infer_instance
instance (v : Int) (o : Option (List Int)) : Decidable (InEnum v o) := by unfold InEnum; cases o <;> infer_instance
instance (k : IntKind) (v : Int) : Decidable (InRange k v) := by unfold InRange; infer_instance

theorem fitsDigits_iff (v : Int) (n : Option Int) :
    FitsDigits v n ↔ ∀ k, n = some k → ((intStr v).length : Int) ≤ k := by
  cases n with
  | none => simp [FitsDigits]
  | some k =>
    simp only [FitsDigits, Option.some.injEq, forall_eq', intStr_length]
    constructor
    · rintro ⟨d, h1, h2⟩
      have := (natStr_length_le v.natAbs d).2 h2
      split at h1 <;> split <;> omega
    · intro h
      refine ⟨(natStr v.natAbs).length, ?_, (natStr_length_le v.natAbs _).1 (Nat.le_refl _)⟩
      split at h <;> split <;> omega

instance (v : Int) (o : Option Int) : Decidable (FitsDigits v o) :=
  decidable_of_iff _ (fitsDigits_iff v o).symm |> fun _ => by
    cases o with
    | none => exact .isTrue trivial
    | some k => exact decidable_of_iff (((intStr v).length : Int) ≤ k) (by rw [fitsDigits_iff]; simp)

instance (k : IntKind) (a : IntArgs) (v : Int) : Decidable (Satisfies k a v) := by unfold Satisfies; infer_instance

/-- The facets in force after construction. -/
theorem facets_eq (k : IntKind) (a : NumFacets) :
    k.facets a = { a with
      fractionDigits := some 0, pattern := some intPattern,
      maxInclusive := match maxOf k with | some b => some (.int b) | none => a.maxInclusive,
      minInclusive := match minOf k with | some b => some (.int b) | none => a.minInclusive } := by
  cases k <;> rfl

theorem seq_guard (P Q : Prop) [Decidable P] [Decidable Q] :
    ((if P then Except.ok () else .error Exn.valueError) >>= fun _ =>
      (if Q then Except.ok () else .error .valueError)) = if P ∧ Q then .ok () else .error .valueError := by
  by_cases hP : P <;> by_cases hQ : Q <;> simp [hP, hQ, bind_ok, bind_error]

theorem check_integer (k : IntKind) (a : IntArgs) (v : Int) :
    checkRestrictions (k.facets a.facets) (.int v) = if Satisfies k a v then .ok () else .error .valueError := by
  have hmax : (match maxOf k with | some b => some (Atom.int b) | none => a.facets.maxInclusive) =
      (fixedOr (maxOf k) a.maxInclusive).map Atom.int := by
    cases maxOf k <;> rfl
  have hmin : (match minOf k with | some b => some (Atom.int b) | none => a.facets.minInclusive) =
      (fixedOr (minOf k) a.minInclusive).map Atom.int := by
    cases minOf k <;> rfl
  have h1 : ifGiven a.facets.enumeration (fun l => raiseIf (!l.any (fun x => (Atom.int v).eqv x)) .valueError) = if InEnum v a.enumeration then .ok () else .error .valueError := by
    simp only [IntArgs.facets]
    cases a.enumeration with
    | none => simp [InEnum, ifGiven]
    | some l =>
      simp only [ifGiven, Option.map_some, any_eqv_int, InEnum]
      by_cases h : v ∈ l <;> simp [h]
  have h2 : checkBound (fun b => b.leE (.int v)) a.facets.maxExclusive =
      if Below v a.maxExclusive then .ok () else .error .valueError := by
    show checkBound _ (a.maxExclusive.map .int) = _
    rw [checkBound_maxExclusive]
    cases a.maxExclusive <;> simp [Below]
  have h3 : checkBound (fun b => b.ltE (.int v)) ((fixedOr (maxOf k) a.maxInclusive).map Atom.int) =
      if AtMost v (fixedOr (maxOf k) a.maxInclusive) then .ok () else .error .valueError := by
    rw [checkBound_maxInclusive]
    cases fixedOr (maxOf k) a.maxInclusive <;> simp [AtMost]
  have h4 : checkBound (fun b => (Atom.int v).leE b) a.facets.minExclusive =
      if Above v a.minExclusive then .ok () else .error .valueError := by
    show checkBound _ (a.minExclusive.map .int) = _
    rw [checkBound_minExclusive]
    cases a.minExclusive <;> simp [Above]
  have h5 : checkBound (fun b => (Atom.int v).ltE b) ((fixedOr (minOf k) a.minInclusive).map Atom.int) =
      if AtLeast v (fixedOr (minOf k) a.minInclusive) then .ok () else .error .valueError := by
    rw [checkBound_minInclusive]
    cases fixedOr (minOf k) a.minInclusive <;> simp [AtLeast]
  have h6 : ifGiven a.facets.totalDigits (fun n => raiseIf (((Atom.int v).toStr.length : Int) -
        (if hasChar '.' (Atom.int v).toStr then 1 else 0) > n) .valueError) = if FitsDigits v a.totalDigits then .ok () else .error .valueError := by
    simp only [IntArgs.facets, Atom.toStr, intStr_no_dot]
    cases ht : a.totalDigits with
    | none => simp [FitsDigits, ifGiven]
    | some n =>
      have := fitsDigits_iff v (some n)
      simp only [Option.some.injEq, forall_eq'] at this
      simp only [ifGiven, raiseIf_eq, this]
      simp
  have h7 : checkFraction (some 0) (Atom.int v).toStr = .ok () := by
    simp [checkFraction, Atom.toStr, intStr_no_dot]
  have h8 : ifGiven (some intPattern) (fun p => raiseIf (!p.matches (Atom.int v).toStr) .valueError) = .ok () := by
    simp [ifGiven, Atom.toStr, intPattern_matches]
  rw [facets_eq]
  unfold checkRestrictions
  simp only [hmax, hmin, h1, h2, h3, h4, h5, h6, h7, h8, bind_ok]
  simp only [seq_guard]
  rfl

theorem accept_integer (k : IntKind) (a : IntArgs) (v : Int) :
    (SType.integer (k.facets a.facets)).accept (.int v) =
      if Satisfies k a v then .ok (.int v) else .error .valueError := by
  simp only [SType.accept, integerAccept, check_integer, guard_bind]

theorem satisfies_default (k : IntKind) (v : Int) : Satisfies k {} v ↔ InRange k v := by
  simp only [Satisfies, InRange, InEnum, Below, Above, FitsDigits, true_and, and_true]
  constructor
  · rintro ⟨h1, h2⟩
    revert h1 h2
    cases minOf k <;> cases maxOf k <;> simp [fixedOr, AtMost, AtLeast] <;> omega
  · rintro ⟨h1, h2⟩
    revert h1 h2
    cases minOf k <;> cases maxOf k <;> simp [fixedOr, AtMost, AtLeast] <;> omega

/-! ### C01 -/

/-- C01: an int is accepted, unchanged, exactly when it is in the range of the XML Schema type; otherwise ValueError. -/
theorem C01_integer_range (k : IntKind) (v : Int) :
    (SType.integer (k.facets {})).accept (.int v) =
      if InRange k v then .ok (.int v) else .error .valueError := by
  have h := accept_integer k {} v
  rw [show IntArgs.facets {} = ({} : NumFacets) from rfl] at h
  rw [h]
  by_cases hr : InRange k v
  · rw [if_pos hr, if_pos ((satisfies_default k v).2 hr)]
  · rw [if_neg hr, if_neg (fun h => hr ((satisfies_default k v).1 h))]

example : InRange .byte (-128) ∧ ¬ InRange .byte (-129) ∧ InRange .unsignedLong (2 ^ 64 - 1) := by decide
example : (SType.integer (IntKind.byte.facets {})).accept (.int 127) = .ok (.int 127) := by
  rw [C01_integer_range]; decide

/-! ### C02 -/

/-- C02: an accepted int is written as optional '-' and digits without leading zeros, and reads back as itself. -/
theorem C02_integer_roundtrip (k : IntKind) (a : IntArgs) (v : Int)
    (h : (SType.integer (k.facets a.facets)).accept (.int v) = .ok (.int v)) :
    ∃ sign digits : Str,
      (SType.integer (k.facets a.facets)).xmlvalue (.int v) = .ok (some (sign ++ digits)) ∧
      (sign = if v < 0 then ['-'] else []) ∧ digits ≠ [] ∧ (∀ c ∈ digits, '0' ≤ c ∧ c ≤ '9') ∧
      (digits.head? = some '0' → digits = ['0'] ∧ v = 0) ∧
      (SType.integer (k.facets a.facets)).pythonvalue (.str (sign ++ digits)) = .ok (.int v) := by
  refine ⟨if v < 0 then ['-'] else [], natStr v.natAbs, ?_, rfl, natStr_ne_nil _, ?_, ?_, ?_⟩
  · simp only [SType.xmlvalue, numXml, Atom.toStr]
    cases v with
    | ofNat n => simp [intStr]
    | negSucc n => simp [intStr, Int.negSucc_lt_zero]
  · intro c hc
    obtain ⟨n, hn, rfl⟩ := natStr_digits _ c hc
    exact digit_cases (P := fun n => '0' ≤ digitChar n ∧ digitChar n ≤ '9') (by decide) n hn
  · intro h0
    by_cases hv : v.natAbs = 0
    · rw [hv]; exact ⟨by decide, by omega⟩
    · exact absurd h0 (natStr_head _ hv)
  · have hs : (if v < 0 then ['-'] else []) ++ natStr v.natAbs = intStr v := by
      cases v with
      | ofNat n => simp [intStr]
      | negSucc n => simp [intStr, Int.negSucc_lt_zero]
    rw [hs]
    have hnil : (Atom.str (intStr v)) ≠ .str py"nil" := by
      intro he
      injection he with he
      have := pyInt_intStr v
      rw [he] at this
      cases this
    simp only [SType.pythonvalue, nilOr, if_neg hnil]
    simp only [SType.accept, integerAccept] at h
    simp only [integerAccept, pyInt_intStr, bind_ok]
    exact h

example : (SType.integer (IntKind.long.facets {})).accept (.int (-9223372036854775808)) =
    .ok (.int (-9223372036854775808)) := by rw [C01_integer_range]; decide

/-! ### C03 -/

/-- C03: with any constructor facets, an int is accepted exactly when it satisfies all facets in force; a bound fixed
by the type (or an ancestor) replaces the constructor's, `pattern` and `fractionDigits` are always replaced. -/
theorem C03_integer_facets (k : IntKind) (a : IntArgs) (v : Int) :
    (SType.integer (k.facets a.facets)).accept (.int v) =
      if Satisfies k a v then .ok (.int v) else .error .valueError :=
  accept_integer k a v

/-- C03: on `Integer` itself every constructor bound is enforced. -/
theorem C03_base_facets (a : IntArgs) (v : Int) :
    (SType.integer (IntKind.integer.facets a.facets)).accept (.int v) = .ok (.int v) ↔
      InEnum v a.enumeration ∧ Below v a.maxExclusive ∧ AtMost v a.maxInclusive ∧
      Above v a.minExclusive ∧ AtLeast v a.minInclusive ∧ FitsDigits v a.totalDigits := by
  rw [accept_integer]
  show (if Satisfies _ a v then _ else _) = _ ↔ _
  constructor
  · intro h
    split at h
    · next hs => exact hs
    · cases h
  · intro h
    exact if_pos h

/-- C03: a maxInclusive passed to a type that fixes it (e.g. `Int(maxInclusive=10)`) is not enforced. -/
theorem C03_fixed_bound_ignored (k : IntKind) (a : IntArgs) (b c : Option Int) (v : Int)
    (hk : maxOf k ≠ none) :
    (SType.integer (k.facets { a with maxInclusive := b }.facets)).accept (.int v) =
      (SType.integer (k.facets { a with maxInclusive := c }.facets)).accept (.int v) := by
  rw [accept_integer, accept_integer]
  have : ∀ x, fixedOr (maxOf k) x = maxOf k := by
    intro x
    cases h : maxOf k with
    | none => exact absurd h hk
    | some b => rfl
  simp only [Satisfies, this]

example : (SType.integer (IntKind.int.facets { maxInclusive := some (.int 10) })).accept (.int 11) = .ok (.int 11) := by
  have := C03_integer_facets .int { maxInclusive := some 10 } 11
  rw [show IntArgs.facets { maxInclusive := some 10 } = ({ maxInclusive := some (.int 10) } : NumFacets) from rfl] at this
  rw [this]; decide
example : Satisfies .integer { minExclusive := some 3, totalDigits := some 2, enumeration := some [5, 77, 100] } 77 := by
  decide

/-! ### C04 -/

theorem readDigits_sound (acc : Nat) (s : Str) (n : Nat) (h : readDigits acc s = some n) :
    ∃ ds, IntTail s ds ∧ n = ds.foldl (fun a d => a * 10 + d) acc := by
  fun_induction readDigits acc s with
  | case1 => simp at h; exact ⟨[], .nil, h.symm⟩
  | case2 acc c cs d hd ih =>
    obtain ⟨ds, h1, h2⟩ := ih h
    exact ⟨d :: ds, .underscore hd h1, h2⟩
  | case3 => cases h
  | case4 acc c cs _ d hd ih =>
    obtain ⟨ds, h1, h2⟩ := ih h
    exact ⟨d :: ds, .digit hd h1, h2⟩
  | case5 => cases h

theorem readDigits_complete (acc : Nat) (s : Str) (ds : List Nat) (h : IntTail s ds) :
    readDigits acc s = some (ds.foldl (fun a d => a * 10 + d) acc) := by
  induction h generalizing acc with
  | nil => rfl
  | @digit c d s ds hd _ ih =>
    have hc : c ≠ '_' := by
      rintro rfl
      revert hd; rw [show uniDigit? '_' = none by decide]; intro h; cases h
    rw [readDigits.eq_def]
    split
    · next he => cases he
    · next he => injection he with h1 _; exact absurd h1 hc
    · next he =>
      injection he with h1 h2
      subst h1; subst h2
      simp only [hd]
      exact ih _
  | underscore hd _ ih => simp only [readDigits, hd]; exact ih _

theorem readNat_iff (s : Str) (n : Nat) : readNat s = some n ↔ ∃ ds, IntDigits s ds ∧ n = digitsNat ds := by
  constructor
  · intro h
    cases s with
    | nil => cases h
    | cons c cs =>
      simp only [readNat] at h
      split at h
      · next d hd =>
        obtain ⟨ds, h1, h2⟩ := readDigits_sound _ _ _ h
        exact ⟨d :: ds, .mk hd h1, by simpa [digitsNat] using h2⟩
      · cases h
  · rintro ⟨ds, h, rfl⟩
    cases h with
    | mk hd ht =>
      simp only [readNat, hd, readDigits_complete _ _ _ ht]
      simp [digitsNat]

theorem uniDigit_not_space {c : Char} {d : Nat} (h : uniDigit? c = some d) : isSpace c = false := by
  unfold uniDigit? at h
  simp only [Option.map_eq_some_iff] at h
  obtain ⟨z, hz, _⟩ := h
  have hm := List.mem_of_find?_eq_some hz
  have hp := List.find?_some hz
  simp only [Bool.and_eq_true, decide_eq_true_eq] at hp
  have key : ∀ z ∈ digitZeros, ∀ k, k < 10 → (let n := z + k
    ((0x9 ≤ n && n ≤ 0xd) || (0x1c ≤ n && n ≤ 0x20) || n == 0x85 || n == 0xa0 || n == 0x1680 ||
    (0x2000 ≤ n && n ≤ 0x200a) || n == 0x2028 || n == 0x2029 || n == 0x202f || n == 0x205f || n == 0x3000)) = false := by
    decide +kernel
  have := key z hm (c.toNat - z) (by omega)
  rw [show z + (c.toNat - z) = c.toNat by omega] at this
  exact this

theorem intTail_last {s ds} (h : IntTail s ds) : ∀ c, s.getLast? = some c → ∃ d, uniDigit? c = some d := by
  induction h with
  | nil => simp
  | @digit c d s ds hd ht ih =>
    intro x hx
    cases s with
    | nil => simp at hx; exact ⟨d, hx ▸ hd⟩
    | cons a as => exact ih x (by simpa [List.getLast?_cons_cons] using hx)
  | @underscore c d s ds hd ht ih =>
    intro x hx
    rw [List.getLast?_cons_cons] at hx
    cases s with
    | nil => simp at hx; exact ⟨d, hx ▸ hd⟩
    | cons a as => exact ih x (by simpa [List.getLast?_cons_cons] using hx)

theorem intDigits_ends {s ds} (h : IntDigits s ds) :
    (∃ c d, s.head? = some c ∧ uniDigit? c = some d) ∧ ∀ c, s.getLast? = some c → ∃ d, uniDigit? c = some d := by
  cases h with
  | @mk c d s ds hd ht =>
    refine ⟨⟨c, d, rfl, hd⟩, ?_⟩
    intro x hx
    cases s with
    | nil => simp at hx; exact ⟨d, hx ▸ hd⟩
    | cons a as => exact intTail_last ht x (by simpa [List.getLast?_cons_cons] using hx)

theorem pyInt_iff (s : Str) (i : Int) : pyInt s = .ok i ↔ Denotes s i := by
  constructor
  · intro h
    obtain ⟨l, r, hs, hl, hr, _, _⟩ := strip_spec s
    unfold pyInt at h
    split at h
    · next cs hcs =>
      split at h
      · next n hn =>
        obtain ⟨ds, hd, rfl⟩ := (readNat_iff _ _).1 hn
        injection h with h
        rw [← h, hs, hcs]
        exact .neg hl hr hd
      · cases h
    · next cs hcs =>
      split at h
      · next n hn =>
        obtain ⟨ds, hd, rfl⟩ := (readNat_iff _ _).1 hn
        injection h with h
        rw [← h, hs, hcs]
        exact .pos ['+'] hl hr (.inr rfl) hd
      · cases h
    · split at h
      · next n hn =>
        obtain ⟨ds, hd, rfl⟩ := (readNat_iff _ _).1 hn
        injection h with h
        rw [← h, hs]
        exact .pos [] hl hr (.inl rfl) hd
      · cases h
  · intro h
    cases h with
    | @pos l body r ds sign hl hr hsign hd =>
      obtain ⟨⟨c, d, hc, hcd⟩, hlast⟩ := intDigits_ends hd
      have hbne : body ≠ [] := by intro h; rw [h] at hc; cases hc
      have hst : strip (l ++ (sign ++ body) ++ r) = sign ++ body := by
        apply strip_unique hl hr
        · rcases hsign with rfl | rfl
          · intro x hx
            simp only [List.nil_append] at hx
            rw [hc] at hx; injection hx with hx; rw [← hx]; exact uniDigit_not_space hcd
          · intro x hx
            simp at hx; rw [← hx]; decide
        · intro x hx
          rw [List.getLast?_append, List.getLast?_eq_some_getLast hbne, Option.some_or] at hx
          obtain ⟨d', hd'⟩ := hlast x (by rw [List.getLast?_eq_some_getLast hbne]; exact hx)
          exact uniDigit_not_space hd'
      have hr' := (readNat_iff body _).2 ⟨ds, hd, rfl⟩
      unfold pyInt
      rw [hst]
      rcases hsign with rfl | rfl
      · cases body with
        | nil => exact absurd rfl hbne
        | cons b bs =>
          simp only [List.head?_cons, Option.some.injEq] at hc
          subst hc
          have h1 : b ≠ '-' := by rintro rfl; revert hcd; rw [show uniDigit? '-' = none by decide]; intro h; cases h
          have h2 : b ≠ '+' := by rintro rfl; revert hcd; rw [show uniDigit? '+' = none by decide]; intro h; cases h
          simp only [List.nil_append]
          split
          · next he => injection he with he _; exact absurd he h1
          · next he => injection he with he _; exact absurd he h2
          · rw [hr']
      · simp only [List.cons_append, List.nil_append]
        rw [hr']
    | @neg l body r ds hl hr hd =>
      obtain ⟨⟨c, d, hc, hcd⟩, hlast⟩ := intDigits_ends hd
      have hbne : body ≠ [] := by intro h; rw [h] at hc; cases hc
      have hst : strip (l ++ ('-' :: body) ++ r) = '-' :: body := by
        apply strip_unique hl hr
        · intro x hx; simp at hx; rw [← hx]; decide
        · intro x hx
          rw [show '-' :: body = ['-'] ++ body from rfl, List.getLast?_append, List.getLast?_eq_some_getLast hbne, Option.some_or] at hx
          obtain ⟨d', hd'⟩ := hlast x (by rw [List.getLast?_eq_some_getLast hbne]; exact hx)
          exact uniDigit_not_space hd'
      have hr' := (readNat_iff body _).2 ⟨ds, hd, rfl⟩
      unfold pyInt
      rw [hst]
      simp only [hr']

theorem pyInt_error (s : Str) (e : Exn) (h : pyInt s = .error e) : e = .valueError := by
  unfold pyInt at h
  repeat' split at h
  all_goals first | (cases h; done) | (injection h with h; exact h.symm)

/-- C04: reading any text yields None (for 'nil'), or the integer the text denotes if it satisfies all facets, or
ValueError. -/
theorem C04_integer_text (k : IntKind) (a : IntArgs) (s : Str) :
    let t := SType.integer (k.facets a.facets)
    (s = py"nil" ∧ t.pythonvalue (.str s) = .ok .none) ∨
    (∃ i, Denotes s i ∧ Satisfies k a i ∧ t.pythonvalue (.str s) = .ok (.int i)) ∨
    (s ≠ py"nil" ∧ (∀ i, Denotes s i → ¬ Satisfies k a i) ∧ t.pythonvalue (.str s) = .error .valueError) := by
  intro t
  by_cases hn : s = py"nil"
  · subst hn; exact .inl ⟨rfl, rfl⟩
  · right
    have hn' : Atom.str s ≠ .str py"nil" := fun h => hn (by injection h)
    have hpy : t.pythonvalue (.str s) = (pyInt s >>= fun x => (checkRestrictions (k.facets a.facets) (.int x)
        >>= fun _ => Except.ok (Atom.int x))) := by
      simp only [t, SType.pythonvalue, nilOr, if_neg hn']
      rfl
    cases hp : pyInt s with
    | error e =>
      right
      refine ⟨hn, ?_, ?_⟩
      · intro i hi
        rw [(pyInt_iff s i).2 hi] at hp; cases hp
      · rw [hpy, hp, pyInt_error s e hp]; rfl
    | ok i =>
      by_cases hs : Satisfies k a i
      · left
        refine ⟨i, (pyInt_iff s i).1 hp, hs, ?_⟩
        rw [hpy, hp, bind_ok, check_integer, if_pos hs]; rfl
      · right
        refine ⟨hn, ?_, ?_⟩
        · intro j hj
          have := (pyInt_iff s j).2 hj
          rw [hp] at this
          injection this with this
          rw [← this]; exact hs
        · rw [hpy, hp, bind_ok, check_integer, if_neg hs]; rfl

example : Denotes py" +1_0
" 10 :=
  Denotes.pos (l := [' ']) (body := py"1_0") (r := ['\n']) (ds := [1, 0]) ['+'] (by decide) (by decide) (.inr rfl)
    (.mk (by decide) (.underscore (by decide) .nil))
example : (SType.integer (IntKind.byte.facets {})).pythonvalue (.str py"128") = .error .valueError := by decide

end Soapfish
