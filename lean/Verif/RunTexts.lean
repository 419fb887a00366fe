import Verif.CodeLemmas
/-
Literals and types in place in generated code.
-/
namespace Soapfish

/-! ### Literals -/

theorem textValue_plain {quote : Char} : ∀ {s : Str}, PlainText quote s → textValue quote s = some s := by
  intro s
  induction s with
  | nil => intro _; rfl
  | cons c s ih =>
    intro h
    obtain ⟨h1, h2, h3, h4, h5⟩ := h c (List.mem_cons_self ..)
    have hs := ih fun d hd => h d (List.mem_cons_of_mem _ hd)
    have he : endsLiteral quote c = false := by simp [endsLiteral, h1, h3, h4, h5]
    unfold textValue
    split
    · rename_i heq; cases heq
    · rename_i heq; injection heq with hc _; exact absurd hc h2
    · rename_i heq; injection heq with hc _; exact absurd hc h2
    · rename_i heq
      injection heq with hc hr
      subst hc; subst hr
      rw [he, hs]; rfl

theorem rawTextValue_raw {s : Str} (h : RawText s) : rawTextValue s = some s := by
  induction h with
  | nil => rfl
  | @char c s h1 h2 h3 h4 h5 _ ih =>
    have he : endsLiteral '\'' c = false := by simp [endsLiteral, h1, h3, h4, h5]
    unfold rawTextValue
    split
    · rename_i heq; cases heq
    · rename_i heq; injection heq with hc _; exact absurd hc h2
    · rename_i heq; injection heq with hc _; exact absurd hc h2
    · rename_i heq
      injection heq with hc hr
      subst hc; subst hr
      rw [he, ih]; rfl
  | @pair c s h1 h2 h3 _ ih =>
    show (if c = '\n' ∨ c = '\r' ∨ c = Char.ofNat 0 then none else (rawTextValue s).map ('\\' :: c :: ·)) = _
    rw [if_neg (by simp only [not_or]; exact ⟨h1, h2, h3⟩), ih]; rfl

theorem evalTexts_plain {l : List Str} (h : ∀ s ∈ l, PlainText '\'' s) : evalTexts l = .ok l := by
  induction l with
  | nil => rfl
  | cons s l ih =>
    unfold evalTexts
    rw [textValue_plain (h s (List.mem_cons_self ..)), ih fun t ht => h t (List.mem_cons_of_mem _ ht)]; rfl

theorem digit_isDigitC {c : Char} (h : IsDigit c) : isDigitC c = true := by
  obtain ⟨n, hn, rfl⟩ := h
  have key : ∀ n : Fin 10, isDigitC (digitChar n.val) = true := by decide
  exact key ⟨n, hn⟩

theorem natStr_numeral (n : Nat) : isNumeral (natStr n) = true := by
  by_cases h0 : n = 0
  · subst h0; rfl
  obtain ⟨c, cs, hc, _⟩ := natStr_cons n
  have hh := natStr_head n h0
  rw [hc] at hh
  have hz : c ≠ '0' := fun he => hh (by rw [he]; rfl)
  have hall : (natStr n).all isDigitC = true := List.all_eq_true.2 fun d hd => digit_isDigitC (natStr_digits n d hd)
  unfold isNumeral
  split
  · rename_i heq; rw [hc] at heq; cases heq
  · rfl
  · rename_i heq; rw [hc] at heq; injection heq with h _; exact absurd h hz
  · exact hall

theorem exprValue_int (i : Int) : exprValue (intStr i) = some (.int i) := by
  cases i with
  | ofNat n =>
    obtain ⟨c, cs, hc, hd⟩ := natStr_cons n
    have h1 : c ≠ '-' := hd.ne '-' (by decide)
    have hb : (match natStr n with | '-' :: r => r | r => r) = natStr n := by
      rw [hc]
      split
      · rename_i heq; injection heq with h _; exact absurd h h1
      · rfl
    have hp := pyInt_intStr (.ofNat n)
    unfold exprValue
    show (if isNumeral (match natStr n with | '-' :: r => r | r => r) = true then _ else _) = _
    rw [hb, if_pos (natStr_numeral n), hp]
  | negSucc n =>
    have hp := pyInt_intStr (.negSucc n)
    unfold exprValue
    show (if isNumeral (natStr (n + 1)) = true then _ else _) = _
    rw [if_pos (natStr_numeral _), hp]

/-! ### Arguments -/

variable {bound : List Str}

theorem evalArgs_append {a b : List (Str × PyArg)} {va vb : List (Str × ArgValue)} (ha : evalArgs bound a = .ok va)
    (hb : evalArgs bound b = .ok vb) : evalArgs bound (a ++ b) = .ok (va ++ vb) := by
  induction a generalizing va with
  | nil => injection ha with ha; subst ha; exact hb
  | cons p a ih =>
    obtain ⟨n, x⟩ := p
    unfold evalArgs at ha
    cases hx : evalArg bound x with
    | error e => rw [hx] at ha; cases ha
    | ok v =>
      rw [hx] at ha
      cases hr : evalArgs bound a with
      | error e => rw [hr] at ha; cases ha
      | ok r =>
        rw [hr] at ha
        injection ha with ha
        subst ha
        show (evalArg bound x >>= fun v => evalArgs bound (a ++ b) >>= fun r => Except.ok ((n, v) :: r)) = _
        rw [hx, ih hr]; rfl

/-- The facet if it does not count as absent. -/
def seen (o : Option Atom) : Option Atom := o.filter fun a => !decide (Blank a)

theorem seen_blank {a : Atom} (h : Blank a) : seen (some a) = none := by simp [seen, h]
theorem seen_some {a : Atom} (h : ¬ Blank a) : seen (some a) = some a := by simp [seen, h]

theorem facetText_seen (o : Option Atom) : facetText o = (seen o).map Atom.toStr := by
  cases o with
  | none => rfl
  | some a =>
    by_cases h : Blank a
    · rw [seen_blank h]; exact facetText_blank fun x hx => by injection hx with hx; exact hx ▸ h
    · rw [seen_some h]
      show (if _ then _ else _) = _
      simp [h]

theorem shownFacet_seen (n : Str) (o : Option Atom) : shownFacet n (seen o) = shownFacet n o := by
  cases o with
  | none => rfl
  | some a =>
    by_cases h : Blank a
    · rw [seen_blank h]; simp [shownFacet, h]
    · rw [seen_some h]

theorem shownFacet_blank (n : Str) {a : Atom} (h : Blank a) : shownFacet n (some a) = [] := by simp [shownFacet, h]

/-- A facet argument that has been evaluated. -/
def facetVal (n : Str) (o : Option Atom) : List (Str × ArgValue) := o.toList.map fun a => (n, .atom a)

theorem eval_int {n : Str} {o : Option Atom} (h : IntFacet o) :
    evalArgs bound (facetArg n .expr ((facetText o).map some)) = .ok (facetVal n (seen o)) := by
  cases o with
  | none => rfl
  | some a =>
    rcases h a rfl with hb | ⟨i, rfl⟩
    · rw [facetText_seen, seen_blank hb]; rfl
    · by_cases hb : Blank (.int i)
      · rw [facetText_seen, seen_blank hb]; rfl
      · rw [facetText_seen, seen_some hb]
        show evalArgs bound [(n, .expr (intStr i))] = _
        simp only [evalArgs, evalArg, exprValue_int]; rfl

theorem eval_pattern {p : Option Str} (h : ∀ q, p = some q → RawText q) :
    evalArgs bound (facetArg py"pattern" .rawText ((facetText (p.map .str)).map some)) =
      .ok (facetVal py"pattern" (seen (p.map .str))) := by
  cases p with
  | none => rfl
  | some q =>
    by_cases hb : Blank (.str q)
    · rw [facetText_seen, show (some q).map Atom.str = some (.str q) from rfl, seen_blank hb]; rfl
    · rw [facetText_seen, show (some q).map Atom.str = some (.str q) from rfl, seen_some hb]
      show evalArgs bound [(py"pattern", .rawText q)] = _
      show ((literal (rawTextValue q) >>= _) >>= _) = _
      rw [rawTextValue_raw (h q rfl)]; rfl

/-- The enumeration argument that has been evaluated. -/
def enumVal (as : List Atom) : List (Str × ArgValue) :=
  if as = [] then [] else [(py"enumeration", .texts (as.map fun a => textOf a.text?))]

theorem eval_enums {as : List Atom} (h : ∀ a ∈ as, ∃ t, a = .str t ∧ PlainText '\'' t) :
    evalArgs bound (if as.map Atom.text? = [] then [] else [(py"enumeration", .texts ((as.map Atom.text?).map textOf))]) =
      .ok (enumVal as) := by
  cases as with
  | nil => rfl
  | cons a l =>
    rw [if_neg (by simp)]
    show ((evalTexts (((a :: l).map Atom.text?).map textOf) >>= _) >>= _) = _
    unfold enumVal
    rw [List.map_map, evalTexts_plain, if_neg (by simp)]
    · rfl
    · intro s hs
      obtain ⟨b, hb, rfl⟩ := List.mem_map.1 hs
      obtain ⟨t, rfl, ht⟩ := h b hb
      exact ht

/-- The evaluated arguments of a type in place. -/
def valsOf (t : TypeObj) : List (Str × ArgValue) :=
  enumVal (shownEnums t) ++ facetVal py"minInclusive" (seen t.minInclusive) ++
  facetVal py"maxInclusive" (seen t.maxInclusive) ++ facetVal py"minExclusive" (seen t.minExclusive) ++
  facetVal py"maxExclusive" (seen t.maxExclusive) ++ facetVal py"fractionDigits" (seen t.fractionDigits) ++
  facetVal py"totalDigits" (seen t.totalDigits) ++ facetVal py"pattern" (seen (t.pattern.map .str))

theorem eval_args {t : TypeObj} (he : ∀ a ∈ shownEnums t, ∃ s, a = .str s ∧ PlainText '\'' s)
    (hp : ∀ q, t.pattern = some q → RawText q) (h1 : IntFacet t.minInclusive) (h2 : IntFacet t.maxInclusive)
    (h3 : IntFacet t.minExclusive) (h4 : IntFacet t.maxExclusive) (h5 : IntFacet t.fractionDigits)
    (h6 : IntFacet t.totalDigits) : evalArgs bound (argsOf t) = .ok (valsOf t) := by
  have hn : argsOf t = ((if (shownEnums t).map Atom.text? = [] then []
        else [(py"enumeration", PyArg.texts (((shownEnums t).map Atom.text?).map textOf))]) ++
      facetArg py"minInclusive" .expr ((facetText t.minInclusive).map some) ++
      facetArg py"maxInclusive" .expr ((facetText t.maxInclusive).map some) ++
      facetArg py"minExclusive" .expr ((facetText t.minExclusive).map some) ++
      facetArg py"maxExclusive" .expr ((facetText t.maxExclusive).map some) ++
      facetArg py"fractionDigits" .expr ((facetText t.fractionDigits).map some) ++
      facetArg py"totalDigits" .expr ((facetText t.totalDigits).map some) ++
      facetArg py"pattern" .rawText ((facetText (t.pattern.map .str)).map some)) := by
    show _ ++ ([] : List (Str × PyArg)) ++ _ ++ _ ++ _ ++ _ ++ _ ++ _ ++ _ ++ [] ++ [] ++ [] ++ [] = _
    simp only [List.append_nil]
    rfl
  rw [hn]
  exact evalArgs_append (evalArgs_append (evalArgs_append (evalArgs_append (evalArgs_append (evalArgs_append
    (evalArgs_append (eval_enums he) (eval_int h1)) (eval_int h2)) (eval_int h3)) (eval_int h4)) (eval_int h5))
    (eval_int h6)) (eval_pattern hp)

theorem argOf_append (a b : List (Str × ArgValue)) (n : Str) : argOf (a ++ b) n = (argOf a n).or (argOf b n) := by
  unfold argOf
  rw [List.find?_append]
  cases a.find? fun p => p.1 = n <;> rfl

theorem argOf_facet (m n : Str) (o : Option Atom) : argOf (facetVal m o) n = if m = n then o.map .atom else none := by
  cases o with
  | none => simp [argOf, facetVal]
  | some a =>
    unfold argOf facetVal
    show ((List.find? _ [(m, ArgValue.atom a)]).map _) = _
    by_cases h : m = n
    · simp [h]
    · simp [h]

theorem argOf_enum (n : Str) (as : List Atom) : argOf (enumVal as) n =
    if py"enumeration" = n ∧ as ≠ [] then some (.texts (as.map fun a => textOf a.text?)) else none := by
  unfold argOf enumVal
  by_cases h : as = []
  · simp [h]
  · rw [if_neg h]
    by_cases hn : py"enumeration" = n
    · simp [h, ← hn]
    · simp [hn]

/-- Facets of the right kind that are not None. -/
theorem seen_ne_none (o : Option Atom) : seen o ≠ some .none := by
  cases o with
  | none => simp [seen]
  | some a =>
    by_cases h : Blank a
    · rw [seen_blank h]; simp
    · rw [seen_some h]
      intro he
      injection he with he
      subst he
      exact h trivial

theorem atom_of (o : Option Atom) (h : o ≠ some .none) :
    (match o.map ArgValue.atom with
      | some (.atom .none) => Option.none
      | some (.atom a) => some a
      | _ => Option.none) = o := by
  cases o with
  | none => rfl
  | some a =>
    cases a <;> first | rfl | exact absurd rfl h

section
variable (t : TypeObj)

theorem vals_minInclusive : atomArg (valsOf t) py"minInclusive" = seen t.minInclusive := by
  unfold atomArg
  have : argOf (valsOf t) py"minInclusive" = (seen t.minInclusive).map .atom := by
    simp [valsOf, argOf_append, argOf_facet, argOf_enum]
  rw [this]
  exact atom_of _ (seen_ne_none _)

theorem vals_maxInclusive : atomArg (valsOf t) py"maxInclusive" = seen t.maxInclusive := by
  unfold atomArg
  have : argOf (valsOf t) py"maxInclusive" = (seen t.maxInclusive).map .atom := by
    simp [valsOf, argOf_append, argOf_facet, argOf_enum]
  rw [this]
  exact atom_of _ (seen_ne_none _)

theorem vals_minExclusive : atomArg (valsOf t) py"minExclusive" = seen t.minExclusive := by
  unfold atomArg
  have : argOf (valsOf t) py"minExclusive" = (seen t.minExclusive).map .atom := by
    simp [valsOf, argOf_append, argOf_facet, argOf_enum]
  rw [this]
  exact atom_of _ (seen_ne_none _)

theorem vals_maxExclusive : atomArg (valsOf t) py"maxExclusive" = seen t.maxExclusive := by
  unfold atomArg
  have : argOf (valsOf t) py"maxExclusive" = (seen t.maxExclusive).map .atom := by
    simp [valsOf, argOf_append, argOf_facet, argOf_enum]
  rw [this]
  exact atom_of _ (seen_ne_none _)

theorem vals_fractionDigits : atomArg (valsOf t) py"fractionDigits" = seen t.fractionDigits := by
  unfold atomArg
  have : argOf (valsOf t) py"fractionDigits" = (seen t.fractionDigits).map .atom := by
    simp [valsOf, argOf_append, argOf_facet, argOf_enum]
  rw [this]
  exact atom_of _ (seen_ne_none _)

theorem vals_totalDigits : atomArg (valsOf t) py"totalDigits" = seen t.totalDigits := by
  unfold atomArg
  have : argOf (valsOf t) py"totalDigits" = (seen t.totalDigits).map .atom := by
    simp [valsOf, argOf_append, argOf_facet, argOf_enum]
  rw [this]
  exact atom_of _ (seen_ne_none _)

theorem vals_pattern : (textArg (valsOf t) py"pattern").map Atom.str = seen (t.pattern.map .str) := by
  have : argOf (valsOf t) py"pattern" = (seen (t.pattern.map .str)).map .atom := by
    simp [valsOf, argOf_append, argOf_facet, argOf_enum]
  have ha : atomArg (valsOf t) py"pattern" = seen (t.pattern.map .str) := by
    unfold atomArg
    rw [this]
    exact atom_of _ (seen_ne_none _)
  unfold textArg
  rw [ha]
  cases t.pattern with
  | none => rfl
  | some q =>
    by_cases h : Blank (.str q)
    · rw [show (some q).map Atom.str = some (.str q) from rfl, seen_blank h]; rfl
    · rw [show (some q).map Atom.str = some (.str q) from rfl, seen_some h]; rfl

theorem vals_enumeration : textsArg (valsOf t) py"enumeration" =
    if shownEnums t = [] then none else some ((shownEnums t).map fun a => textOf a.text?) := by
  unfold textsArg
  have : argOf (valsOf t) py"enumeration" = if shownEnums t ≠ [] then
      some (.texts ((shownEnums t).map fun a => textOf a.text?)) else none := by
    simp [valsOf, argOf_append, argOf_facet, argOf_enum]
  rw [this]
  by_cases h : shownEnums t = []
  · simp [h]
  · simp [h]

end

theorem texts_back {as : List Atom} (h : ∀ a ∈ as, ∃ s, a = .str s ∧ PlainText '\'' s) :
    ((if as = [] then none else some (as.map fun a => textOf a.text?)).map
      (·.map Atom.str) : Option (List Atom)).getD [] = as := by
  by_cases he : as = []
  · simp [he]
  · rw [if_neg he]
    show (as.map _).map Atom.str = as
    rw [List.map_map]
    have : ∀ a ∈ as, (Atom.str ∘ fun a : Atom => textOf a.text?) a = a := by
      intro a ha
      obtain ⟨s, rfl, _⟩ := h a ha
      rfl
    rw [List.map_congr_left this, List.map_id']

/-! ### Types in place -/

/-- The names of the arguments. -/
theorem vals_names {t : TypeObj} {p : Str × ArgValue} (hp : p ∈ valsOf t) :
    (p.1 = py"enumeration" ∧ shownEnums t ≠ []) ∨ (p.1 = py"minInclusive" ∧ seen t.minInclusive ≠ none) ∨
    (p.1 = py"maxInclusive" ∧ seen t.maxInclusive ≠ none) ∨ (p.1 = py"minExclusive" ∧ seen t.minExclusive ≠ none) ∨
    (p.1 = py"maxExclusive" ∧ seen t.maxExclusive ≠ none) ∨
    (p.1 = py"fractionDigits" ∧ seen t.fractionDigits ≠ none) ∨ (p.1 = py"totalDigits" ∧ seen t.totalDigits ≠ none) ∨
    (p.1 = py"pattern" ∧ seen (t.pattern.map .str) ≠ none) := by
  have hf : ∀ n o, p ∈ facetVal n o → p.1 = n ∧ o ≠ none := by
    intro n o h
    obtain ⟨a, ha, rfl⟩ := List.mem_map.1 h
    exact ⟨rfl, by rintro rfl; cases ha⟩
  have he : p ∈ enumVal (shownEnums t) → p.1 = py"enumeration" ∧ shownEnums t ≠ [] := by
    intro h
    unfold enumVal at h
    by_cases hs : shownEnums t = []
    · rw [if_pos hs] at h; cases h
    · rw [if_neg hs, List.mem_singleton] at h
      exact ⟨by rw [h], hs⟩
  simp only [valsOf, List.mem_append] at hp
  rcases hp with (((((((h | h) | h) | h) | h) | h) | h) | h)
  · exact .inl (he h)
  · exact .inr (.inl (hf _ _ h))
  · exact .inr (.inr (.inl (hf _ _ h)))
  · exact .inr (.inr (.inr (.inl (hf _ _ h))))
  · exact .inr (.inr (.inr (.inr (.inl (hf _ _ h)))))
  · exact .inr (.inr (.inr (.inr (.inr (.inl (hf _ _ h))))))
  · exact .inr (.inr (.inr (.inr (.inr (.inr (.inl (hf _ _ h)))))))
  · exact .inr (.inr (.inr (.inr (.inr (.inr (.inr (hf _ _ h)))))))

/-- The type looks the same in a document. -/
structure LooksLike (t t' : TypeObj) : Prop where
  cls : t'.cls = t.cls
  enums : shownEnums t' = shownEnums t
  facets : shownFacets t' = shownFacets t

theorem shownFacets_congr {t t' : TypeObj}
    (hp : shownFacet py"pattern" (t'.pattern.map .str) = shownFacet py"pattern" (t.pattern.map .str))
    (h1 : shownFacet py"minInclusive" t'.minInclusive = shownFacet py"minInclusive" t.minInclusive)
    (h2 : shownFacet py"minExclusive" t'.minExclusive = shownFacet py"minExclusive" t.minExclusive)
    (h3 : shownFacet py"maxExclusive" t'.maxExclusive = shownFacet py"maxExclusive" t.maxExclusive)
    (h4 : shownFacet py"maxInclusive" t'.maxInclusive = shownFacet py"maxInclusive" t.maxInclusive)
    (h5 : shownFacet py"fractionDigits" t'.fractionDigits = shownFacet py"fractionDigits" t.fractionDigits)
    (h6 : shownFacet py"totalDigits" t'.totalDigits = shownFacet py"totalDigits" t.totalDigits) :
    shownFacets t' = shownFacets t := by
  unfold shownFacets
  rw [hp, h1, h2, h3, h4, h5, h6]

theorem shownEnums_simple {t : TypeObj} (h : t.cls.FirstBaseSimple) : shownEnums t = t.enumeration.getD [] := by
  simp [shownEnums, h]

theorem shownEnums_other {t : TypeObj} (h : ¬ t.cls.FirstBaseSimple) : shownEnums t = [] := by
  simp [shownEnums, h]

theorem shownEnums_plain {t : TypeObj} (h : PlainEnums t.enumeration) :
    ∀ a ∈ shownEnums t, ∃ s, a = .str s ∧ PlainText '\'' s := by
  intro a ha
  unfold shownEnums at ha
  split at ha
  · exact h a ha
  · cases ha

/-- The enumeration after the round trip. -/
theorem shownEnums_back {t t' : TypeObj} (hc : t'.cls = t.cls)
    (hp : ∀ a ∈ shownEnums t, ∃ s, a = .str s ∧ PlainText '\'' s)
    (he : t'.enumeration = (if shownEnums t = [] then none else some ((shownEnums t).map fun a => textOf a.text?)).map
      (·.map Atom.str)) : shownEnums t' = shownEnums t := by
  by_cases h : t'.cls.FirstBaseSimple
  · rw [shownEnums_simple h, he, texts_back hp]
  · rw [shownEnums_other h, shownEnums_other (hc ▸ h)]

theorem intFacet_none : IntFacet none := fun _ h => nomatch h

theorem mem_params {b : Builtin} {t : TypeObj} (h : ∀ p ∈ valsOf t, p.1 ∈ b.initKind.params) :
    (valsOf t).all (fun p => p.1 ∈ b.initKind.params) = true := by
  rw [List.all_eq_true]
  intro p hp
  exact decide_eq_true (h p hp)

theorem inPlace_text {b : Builtin} {e : Option (List Atom)} {p : Option Str}
    (hb : b ∈ [.string, .anyURI, .qname, .base64Binary, .duration]) (he : PlainEnums e)
    (hp : ∀ q, p = some q → RawText q) :
    ∃ t', evalArgs bound (argsOf { cls := .builtin b, enumeration := e, pattern := p }) =
        .ok (valsOf { cls := .builtin b, enumeration := e, pattern := p }) ∧
      callType { cls := .builtin b } (valsOf { cls := .builtin b, enumeration := e, pattern := p }) = .ok t' ∧
      LooksLike { cls := .builtin b, enumeration := e, pattern := p } t' := by
  generalize ht : ({ cls := .builtin b, enumeration := e, pattern := p } : TypeObj) = t
  have htc : t.cls = .builtin b := by rw [← ht]
  have hte : shownEnums t = shownEnums t := rfl
  have hpl := shownEnums_plain (t := t) (by rw [← ht]; exact he)
  have hk : b.initKind = .text := by
    simp only [List.mem_cons, List.not_mem_nil, or_false] at hb
    rcases hb with rfl | rfl | rfl | rfl | rfl <;> rfl
  refine ⟨instanceOf { cls := .builtin b } .text (valsOf t), ?_, ?_, ?_⟩
  · rw [← ht]
    exact eval_args (by rw [ht]; exact hpl) hp intFacet_none intFacet_none intFacet_none intFacet_none intFacet_none
      intFacet_none
  · unfold callType
    show (if (valsOf t).all (fun p => p.1 ∈ b.initKind.params) = true then
      Except.ok (instanceOf _ b.initKind _) else _) = _
    rw [if_pos, hk]
    refine mem_params fun p hp => ?_
    rw [hk]
    rcases vals_names hp with h | h | h | h | h | h | h | h
    · rw [h.1]; decide
    · exact absurd (by rw [← ht]; rfl) h.2
    · exact absurd (by rw [← ht]; rfl) h.2
    · exact absurd (by rw [← ht]; rfl) h.2
    · exact absurd (by rw [← ht]; rfl) h.2
    · exact absurd (by rw [← ht]; rfl) h.2
    · exact absurd (by rw [← ht]; rfl) h.2
    · rw [h.1]; decide
  · refine ⟨by rw [htc]; rfl, ?_, ?_⟩
    · refine shownEnums_back (by rw [htc]; rfl) hpl ?_
      show ((textsArg (valsOf t) py"enumeration").or none).map _ = _
      rw [vals_enumeration, Option.or_none]
    · refine shownFacets_congr ?_ (by rw [← ht]; rfl) (by rw [← ht]; rfl) (by rw [← ht]; rfl) (by rw [← ht]; rfl)
        (by rw [← ht]; rfl) (by rw [← ht]; rfl)
      show shownFacet _ (((textArg (valsOf t) py"pattern").or none).map _) = _
      rw [Option.or_none, vals_pattern, shownFacet_seen]

theorem inPlace_decimal {t : TypeObj} (hc : t.cls = .builtin .decimal) (he : PlainEnums t.enumeration)
    (hp : ∀ q, t.pattern = some q → RawText q) (h1 : IntFacet t.fractionDigits) (h2 : IntFacet t.totalDigits)
    (h3 : IntFacet t.minInclusive) (h4 : IntFacet t.minExclusive) (h5 : IntFacet t.maxExclusive)
    (h6 : IntFacet t.maxInclusive) :
    ∃ t', evalArgs bound (argsOf t) = .ok (valsOf t) ∧ callType { cls := t.cls } (valsOf t) = .ok t' ∧ LooksLike t t' := by
  have hpl := shownEnums_plain he
  refine ⟨instanceOf { cls := t.cls } .decimal (valsOf t), eval_args hpl hp h3 h6 h4 h5 h1 h2, ?_, ?_⟩
  · unfold callType
    rw [hc]
    show (if (valsOf t).all (fun p => p.1 ∈ (Builtin.decimal).initKind.params) = true then
      Except.ok (instanceOf _ .decimal _) else _) = _
    rw [if_pos]
    refine mem_params fun p hp => ?_
    rcases vals_names hp with h | h | h | h | h | h | h | h <;> rw [h.1] <;> decide
  · refine ⟨rfl, shownEnums_back rfl hpl ?_, ?_⟩
    · show (textsArg (valsOf t) py"enumeration").map _ = _
      rw [vals_enumeration]
    · refine shownFacets_congr ?_ ?_ ?_ ?_ ?_ ?_ ?_
      · show shownFacet _ ((textArg (valsOf t) py"pattern").map _) = _
        rw [vals_pattern, shownFacet_seen]
      · show shownFacet _ (atomArg (valsOf t) py"minInclusive") = _
        rw [vals_minInclusive, shownFacet_seen]
      · show shownFacet _ (atomArg (valsOf t) py"minExclusive") = _
        rw [vals_minExclusive, shownFacet_seen]
      · show shownFacet _ (atomArg (valsOf t) py"maxExclusive") = _
        rw [vals_maxExclusive, shownFacet_seen]
      · show shownFacet _ (atomArg (valsOf t) py"maxInclusive") = _
        rw [vals_maxInclusive, shownFacet_seen]
      · show shownFacet _ (atomArg (valsOf t) py"fractionDigits") = _
        rw [vals_fractionDigits, shownFacet_seen]
      · show shownFacet _ (atomArg (valsOf t) py"totalDigits") = _
        rw [vals_totalDigits, shownFacet_seen]

theorem inPlace_double {t : TypeObj} {b : Builtin} (hb : b ∈ [.double, .float]) (hc : t.cls = .builtin b)
    (hp : ∀ q, t.pattern = some q → RawText q) (h1 : t.fractionDigits = none) (h2 : t.totalDigits = none)
    (h3 : IntFacet t.minInclusive) (h4 : IntFacet t.minExclusive) (h5 : IntFacet t.maxExclusive)
    (h6 : IntFacet t.maxInclusive) :
    ∃ t', evalArgs bound (argsOf t) = .ok (valsOf t) ∧ callType { cls := t.cls } (valsOf t) = .ok t' ∧ LooksLike t t' := by
  have hk : b.initKind = .double ∧ ¬ t.cls.FirstBaseSimple := by
    rw [hc]
    simp only [List.mem_cons, List.not_mem_nil, or_false] at hb
    rcases hb with rfl | rfl <;> exact ⟨rfl, by decide⟩
  have hse := shownEnums_other hk.2
  have hpl : ∀ a ∈ shownEnums t, ∃ s, a = .str s ∧ PlainText '\'' s := by
    rw [hse]; exact fun _ h => absurd h List.not_mem_nil
  refine ⟨instanceOf { cls := t.cls } .double (valsOf t),
    eval_args hpl hp h3 h6 h4 h5 (h1 ▸ intFacet_none) (h2 ▸ intFacet_none), ?_, ?_⟩
  · unfold callType
    rw [hc]
    show (if (valsOf t).all (fun p => p.1 ∈ b.initKind.params) = true then
      Except.ok (instanceOf _ b.initKind _) else _) = _
    rw [if_pos, hk.1]
    refine mem_params fun p hp => ?_
    rw [hk.1]
    rcases vals_names hp with h | h | h | h | h | h | h | h
    · rw [h.1]; decide
    · rw [h.1]; decide
    · rw [h.1]; decide
    · rw [h.1]; decide
    · rw [h.1]; decide
    · exact absurd (by rw [h1]; rfl) h.2
    · exact absurd (by rw [h2]; rfl) h.2
    · rw [h.1]; decide
  · refine ⟨rfl, shownEnums_back rfl hpl ?_, ?_⟩
    · show (textsArg (valsOf t) py"enumeration").map _ = _
      rw [vals_enumeration]
    · refine shownFacets_congr ?_ ?_ ?_ ?_ ?_ ?_ ?_
      · show shownFacet _ ((textArg (valsOf t) py"pattern").map _) = _
        rw [vals_pattern, shownFacet_seen]
      · show shownFacet _ (atomArg (valsOf t) py"minInclusive") = _
        rw [vals_minInclusive, shownFacet_seen]
      · show shownFacet _ (atomArg (valsOf t) py"minExclusive") = _
        rw [vals_minExclusive, shownFacet_seen]
      · show shownFacet _ (atomArg (valsOf t) py"maxExclusive") = _
        rw [vals_maxExclusive, shownFacet_seen]
      · show shownFacet _ (atomArg (valsOf t) py"maxInclusive") = _
        rw [vals_maxInclusive, shownFacet_seen]
      · show shownFacet _ (atomArg (valsOf t) py"fractionDigits") = _
        rw [vals_fractionDigits, shownFacet_seen]
      · show shownFacet _ (atomArg (valsOf t) py"totalDigits") = _
        rw [vals_totalDigits, shownFacet_seen]

open Spec in
/-- The bounds the constructor of an integer class leaves. -/
theorem overrides_bounds (k : IntKind) (a b : Option Atom) :
    (k.facets { maxInclusive := a, minInclusive := b }).maxInclusive = ((maxOf k).map Atom.int).or a ∧
    (k.facets { maxInclusive := a, minInclusive := b }).minInclusive = ((minOf k).map Atom.int).or b := by
  cases k <;> exact ⟨rfl, rfl⟩

open Spec in
theorem inPlace_integer {t : TypeObj} {k : IntKind} (hc : t.cls = .builtin (.int k))
    (hp : t.pattern = some py"[-+]?[0-9]+") (h1 : t.fractionDigits = some (.int 0)) (h2 : IntFacet t.totalDigits)
    (h3 : IntFacet t.minInclusive) (h4 : IntFacet t.minExclusive) (h5 : IntFacet t.maxExclusive)
    (h6 : IntFacet t.maxInclusive) (hmin : ∀ i, minOf k = some i → t.minInclusive = some (.int i))
    (hmax : ∀ i, maxOf k = some i → t.maxInclusive = some (.int i)) :
    ∃ t', evalArgs bound (argsOf t) = .ok (valsOf t) ∧ callType { cls := t.cls } (valsOf t) = .ok t' ∧ LooksLike t t' := by
  have hse := shownEnums_other (t := t) (by rw [hc]; simp [TypeCls.FirstBaseSimple])
  have hpl : ∀ a ∈ shownEnums t, ∃ s, a = .str s ∧ PlainText '\'' s := by
    rw [hse]; exact fun _ h => absurd h List.not_mem_nil
  have hraw : RawText py"[-+]?[0-9]+" := by
    repeat refine .char (by decide) (by decide) (by decide) (by decide) (by decide) ?_
    exact .nil
  refine ⟨instanceOf { cls := t.cls } (.integer k) (valsOf t),
    eval_args hpl (by rw [hp]; intro q hq; injection hq with hq; exact hq ▸ hraw) h3 h6 h4 h5
      (by rw [h1]; intro x hx; injection hx with hx; exact .inr ⟨0, hx.symm⟩) h2, ?_, ?_⟩
  · unfold callType
    rw [hc]
    show (if (valsOf t).all (fun p => p.1 ∈ (Builtin.int k).initKind.params) = true then
      Except.ok (instanceOf _ (.integer k) _) else _) = _
    rw [if_pos]
    refine mem_params fun p hp => ?_
    show p.1 ∈ InitKind.decimal.params
    rcases vals_names hp with h | h | h | h | h | h | h | h <;> rw [h.1] <;> decide
  · refine ⟨rfl, shownEnums_back rfl hpl ?_, ?_⟩
    · show (textsArg (valsOf t) py"enumeration").map _ = _
      rw [vals_enumeration]
    · refine shownFacets_congr ?_ ?_ ?_ ?_ ?_ ?_ ?_
      · rw [hp]; rfl
      · have hb := overrides_bounds k (atomArg (valsOf t) py"maxInclusive") (atomArg (valsOf t) py"minInclusive")
        refine Eq.trans (congrArg _ hb.2) ?_
        rw [vals_minInclusive]
        cases hm : minOf k with
        | none => exact shownFacet_seen _ _
        | some i => rw [hmin i hm]; rfl
      · show shownFacet _ (atomArg (valsOf t) py"minExclusive") = _
        rw [vals_minExclusive, shownFacet_seen]
      · show shownFacet _ (atomArg (valsOf t) py"maxExclusive") = _
        rw [vals_maxExclusive, shownFacet_seen]
      · have hb := overrides_bounds k (atomArg (valsOf t) py"maxInclusive") (atomArg (valsOf t) py"minInclusive")
        refine Eq.trans (congrArg _ hb.1) ?_
        rw [vals_maxInclusive]
        cases hm : maxOf k with
        | none => exact shownFacet_seen _ _
        | some i => rw [hmax i hm]; rfl
      · rw [h1]; rfl
      · show shownFacet _ (atomArg (valsOf t) py"totalDigits") = _
        rw [vals_totalDigits, shownFacet_seen]

theorem InPlaceSurvives.common {t : TypeObj} (h : InPlaceSurvives t) : ∃ b, t.cls = .builtin b ∧ CommonBuiltin b := by
  cases h with
  | @text b _ _ hb =>
    refine ⟨b, rfl, ?_⟩
    simp only [List.mem_cons, List.not_mem_nil, or_false] at hb
    rcases hb with rfl | rfl | rfl | rfl | rfl <;> (unfold CommonBuiltin; decide)
  | decimal => exact ⟨_, rfl, by unfold CommonBuiltin; decide⟩
  | @double b _ _ _ _ _ _ hb =>
    refine ⟨b, rfl, ?_⟩
    simp only [List.mem_cons, List.not_mem_nil, or_false] at hb
    rcases hb with rfl | rfl <;> (unfold CommonBuiltin; decide)
  | integer hb => exact ⟨_, rfl, hb⟩
  | @plain b hb =>
    refine ⟨b, rfl, ?_⟩
    simp only [List.mem_cons, List.not_mem_nil, or_false] at hb
    rcases hb with rfl | rfl | rfl | rfl <;> (unfold CommonBuiltin; decide)

theorem InPlaceSurvives.call {t : TypeObj} (h : InPlaceSurvives t) :
    ∃ t', evalArgs bound (argsOf t) = .ok (valsOf t) ∧ callType { cls := t.cls } (valsOf t) = .ok t' ∧ LooksLike t t' := by
  cases h with
  | text hb he hp => exact inPlace_text hb he hp
  | decimal he hp h1 h2 h3 h4 h5 h6 => exact inPlace_decimal rfl he hp h1 h2 h3 h4 h5 h6
  | double hb hp h3 h4 h5 h6 => exact inPlace_double hb rfl hp rfl rfl h3 h4 h5 h6
  | integer _ h2 h3 h4 h5 h6 hmin hmax => exact inPlace_integer rfl rfl rfl h2 h3 h4 h5 h6 hmin hmax
  | @plain b hb =>
    refine ⟨{ cls := .builtin b }, ?_, ?_, ⟨rfl, rfl, rfl⟩⟩
    · refine eval_args ?_ (by intro q hq; cases hq) intFacet_none intFacet_none intFacet_none intFacet_none
        intFacet_none intFacet_none
      exact shownEnums_plain (fun a ha => absurd ha List.not_mem_nil)
    · simp only [List.mem_cons, List.not_mem_nil, or_false] at hb
      rcases hb with rfl | rfl | rfl | rfl <;> rfl

end Soapfish
