import Verif.RunTypesLemmas
/-
Types in place, in imported modules.
-/
namespace Soapfish

/-- The evaluated arguments of a type in place. -/
def InPlaceFacets.vals (f : InPlaceFacets) : List (Str × ArgValue) :=
  (if f.enumeration = [] then [] else [(py"enumeration", .texts f.enumeration)]) ++
  facetVal py"minInclusive" (f.minInclusive.map .int) ++ facetVal py"maxInclusive" (f.maxInclusive.map .int) ++
  facetVal py"minExclusive" (f.minExclusive.map .int) ++ facetVal py"maxExclusive" (f.maxExclusive.map .int) ++
  facetVal py"fractionDigits" (f.fractionDigits.map .int) ++ facetVal py"totalDigits" (f.totalDigits.map .int) ++
  facetVal py"pattern" (f.pattern.map .str) ++ facetVal py"length" (f.length.map .int) ++
  facetVal py"minLength" (f.minLength.map .int) ++ facetVal py"maxLength" (f.maxLength.map .int)

theorem eval_intValue {bound : List Str} {n : Str} (i : Option Int) :
    evalArgs bound (facetArg n .expr (intValue i)) = .ok (facetVal n (i.map .int)) := by
  cases i with
  | none => rfl
  | some i =>
    show evalArgs bound [(n, .expr (intStr i))] = _
    simp only [evalArgs, evalArg, exprValue_int]; rfl

theorem eval_written {bound : List Str} {f : InPlaceFacets} (hf : f.Plain) {n : Str} (hn : n ∉ kwlist) (q : Str) :
    evalArgs bound (inPlaceArgs (some n) (f.written q)) = .ok f.vals := by
  have h0 : evalArgs bound (if (f.written q).enumerations = [] then []
      else [(py"enumeration", .texts ((f.written q).enumerations.map textOf))]) =
      .ok (if f.enumeration = [] then [] else [(py"enumeration", .texts f.enumeration)]) := by
    show evalArgs bound (if f.enumeration.map some = [] then [] else [(py"enumeration", .texts ((f.enumeration.map some).map textOf))]) = _
    have hm : (f.enumeration.map some).map textOf = f.enumeration := by
      rw [List.map_map]; exact List.map_id _
    rw [hm]
    by_cases h : f.enumeration = []
    · rw [if_pos h, if_pos (by rw [h]; rfl)]; rfl
    · rw [if_neg h, if_neg (by simpa using h)]
      simp only [evalArgs, evalArg, evalTexts_plain hf.1, bind, Except.bind]
  have hk : (if isKeyword (some n) then [(py"tagname", PyArg.text (textOf (some n)))] else []) = [] := by
    unfold isKeyword; simp [hn]
  have hp : evalArgs bound (facetArg py"pattern" .rawText (f.written q).pattern) =
      .ok (facetVal py"pattern" (f.pattern.map .str)) := by
    show evalArgs bound (facetArg py"pattern" .rawText (f.pattern.map some)) = _
    cases hpat : f.pattern with
    | none => rfl
    | some p =>
      show evalArgs bound [(py"pattern", .rawText p)] = _
      simp only [evalArgs, evalArg, rawTextValue_raw (hf.2 p hpat), literal, bind, Except.bind]; rfl
  have hw : evalArgs bound (facetArg py"whiteSpace" .expr (f.written q).whiteSpace) = .ok [] := rfl
  unfold inPlaceArgs
  rw [hk]
  have := evalArgs_append (evalArgs_append (evalArgs_append (evalArgs_append (evalArgs_append (evalArgs_append (evalArgs_append
    (evalArgs_append (evalArgs_append (evalArgs_append (evalArgs_append (evalArgs_append h0 (show evalArgs bound [] = .ok [] from rfl))
      (eval_intValue (n := py"minInclusive") f.minInclusive)) (eval_intValue (n := py"maxInclusive") f.maxInclusive))
      (eval_intValue (n := py"minExclusive") f.minExclusive)) (eval_intValue (n := py"maxExclusive") f.maxExclusive))
      (eval_intValue (n := py"fractionDigits") f.fractionDigits)) (eval_intValue (n := py"totalDigits") f.totalDigits))
      hp) (eval_intValue (n := py"length") f.length)) (eval_intValue (n := py"minLength") f.minLength))
      (eval_intValue (n := py"maxLength") f.maxLength)) hw
  simp only [List.append_nil] at this ⊢
  exact this

section
variable {prefixes : List (Option Str)}

/-- The field for an element with a type in place. -/
theorem elementFields_inPlace {known : List Str} {e : DElement} {n : Str} {b : Builtin} {f : InPlaceFacets}
    (h : HasInPlace prefixes e n b f) :
    ∃ q, elementFields prefixes known e = .ok [.inPlace n (.xsd b.clsName) (inPlaceArgs (some n) (f.written q))] := by
  obtain ⟨st, q, p, l, h1, h2, h3, h4, h5, h6⟩ := h.simpleType
  refine ⟨q, ?_⟩
  have hne : q ≠ [] := by
    cases h3 with
    | plain => exact h5
    | prefixed => simp
  have hq : TypeSource.qname (.derived (some q)) = .ok q := by
    cases q with
    | nil => exact absurd rfl hne
    | cons c cs => rfl
  have href : pyRef prefixes known (.derived (some q)) = .ok (.xsd b.clsName) := by
    unfold pyRef
    rw [hq]
    simp only [bind, Except.bind, h3.split]
    rw [capitalize_capName (by cases l with
      | nil => exact absurd rfl h5
      | cons c cs => exact List.cons_ne_nil _ _)]
    simp only [if_pos h4, h6]
  have ha : typedField prefixes known e = .ok [] := by unfold typedField; rw [h.type]; rfl
  have hb : inPlaceField prefixes known e = .ok [.inPlace n (.xsd b.clsName) (inPlaceArgs (some n) (f.written q))] := by
    unfold inPlaceField
    rw [h1]
    show (pyRef prefixes known (baseSource (st.restriction.map (·.base))) >>= _) = _
    rw [h2]
    show (pyRef prefixes known (.derived (some q)) >>= _) = _
    rw [href]
    show Except.ok [PyField.inPlace (fixKeywordO e.name) (.xsd b.clsName) (inPlaceArgs e.name (f.written q))] = _
    rw [h.name.1]
    have : fixKeywordO (some n) = n := by unfold fixKeywordO fixKeyword; exact if_neg h.name.2
    rw [this]
  have hc : refField prefixes known e = .ok [] := by unfold refField; rw [h.ref]; rfl
  unfold elementFields
  rw [ha, hb, hc]
  rfl

/-- Its descriptor, if the constructor takes the arguments. -/
theorem execField_inPlace {env : PyEnv} {bound : List Str} {n : Str} {b : Builtin} {f : InPlaceFacets} (hf : f.Plain)
    (hn : n ∉ kwlist) (q : Str) (hx : py"xsd" ∉ bound) (hp : ∀ a ∈ f.vals, a.1 ∈ b.initKind.params) :
    execField env bound (.inPlace n (.xsd b.clsName) (inPlaceArgs (some n) (f.written q))) =
      .ok (.element (.inst (instanceOf { cls := .builtin b } b.initKind f.vals)) none 1 false) := by
  unfold execField
  rw [if_neg hx]
  have hu : typeUse env bound (.xsd b.clsName) = .ok (.simple { cls := .builtin b }) := by
    show (xsdAttr b.clsName >>= _) = _
    rw [xsdAttr_builtin]; rfl
  have hc : callType { cls := .builtin b } f.vals = .ok (instanceOf { cls := .builtin b } b.initKind f.vals) := by
    unfold callType
    show (if f.vals.all _ = true then _ else _) = _
    rw [if_pos]
    exact List.all_eq_true.2 fun a ha => decide_eq_true (hp a ha)
  have hi : inPlaceUse env bound (.xsd b.clsName) (inPlaceArgs (some n) (f.written q)) =
      .ok (.inst (instanceOf { cls := .builtin b } b.initKind f.vals)) := by
    unfold inPlaceUse
    simp only [hu, eval_written hf hn, hc, bind, Except.bind]
  simp only [hi, bind, Except.bind]

end

/-! ### The arguments of the constructor -/

section
variable (f : InPlaceFacets)

theorem argOf_enumeration (n : Str) : argOf (if f.enumeration = [] then [] else [(py"enumeration", .texts f.enumeration)]) n =
    if py"enumeration" = n ∧ f.enumeration ≠ [] then some (.texts f.enumeration) else none := by
  by_cases h : f.enumeration = []
  · simp [h, argOf]
  · rw [if_neg h]
    unfold argOf
    by_cases hn : py"enumeration" = n
    · simp [h, ← hn]
    · simp [hn]

theorem int_ne_none (i : Option Int) : i.map Atom.int ≠ some .none := by cases i <;> simp

theorem str_ne_none (i : Option Str) : i.map Atom.str ≠ some .none := by cases i <;> simp

theorem arg_minInclusive : atomArg f.vals py"minInclusive" = f.minInclusive.map .int := by
  unfold atomArg
  have : argOf f.vals py"minInclusive" = (f.minInclusive.map Atom.int).map .atom := by
    simp [InPlaceFacets.vals, argOf_append, argOf_facet, argOf_enumeration]
  rw [this]; exact atom_of _ (int_ne_none _)

theorem arg_maxInclusive : atomArg f.vals py"maxInclusive" = f.maxInclusive.map .int := by
  unfold atomArg
  have : argOf f.vals py"maxInclusive" = (f.maxInclusive.map Atom.int).map .atom := by
    simp [InPlaceFacets.vals, argOf_append, argOf_facet, argOf_enumeration]
  rw [this]; exact atom_of _ (int_ne_none _)

theorem arg_minExclusive : atomArg f.vals py"minExclusive" = f.minExclusive.map .int := by
  unfold atomArg
  have : argOf f.vals py"minExclusive" = (f.minExclusive.map Atom.int).map .atom := by
    simp [InPlaceFacets.vals, argOf_append, argOf_facet, argOf_enumeration]
  rw [this]; exact atom_of _ (int_ne_none _)

theorem arg_maxExclusive : atomArg f.vals py"maxExclusive" = f.maxExclusive.map .int := by
  unfold atomArg
  have : argOf f.vals py"maxExclusive" = (f.maxExclusive.map Atom.int).map .atom := by
    simp [InPlaceFacets.vals, argOf_append, argOf_facet, argOf_enumeration]
  rw [this]; exact atom_of _ (int_ne_none _)

theorem arg_fractionDigits : atomArg f.vals py"fractionDigits" = f.fractionDigits.map .int := by
  unfold atomArg
  have : argOf f.vals py"fractionDigits" = (f.fractionDigits.map Atom.int).map .atom := by
    simp [InPlaceFacets.vals, argOf_append, argOf_facet, argOf_enumeration]
  rw [this]; exact atom_of _ (int_ne_none _)

theorem arg_totalDigits : atomArg f.vals py"totalDigits" = f.totalDigits.map .int := by
  unfold atomArg
  have : argOf f.vals py"totalDigits" = (f.totalDigits.map Atom.int).map .atom := by
    simp [InPlaceFacets.vals, argOf_append, argOf_facet, argOf_enumeration]
  rw [this]; exact atom_of _ (int_ne_none _)

theorem arg_length : atomArg f.vals py"length" = f.length.map .int := by
  unfold atomArg
  have : argOf f.vals py"length" = (f.length.map Atom.int).map .atom := by
    simp [InPlaceFacets.vals, argOf_append, argOf_facet, argOf_enumeration]
  rw [this]; exact atom_of _ (int_ne_none _)

theorem arg_minLength : atomArg f.vals py"minLength" = f.minLength.map .int := by
  unfold atomArg
  have : argOf f.vals py"minLength" = (f.minLength.map Atom.int).map .atom := by
    simp [InPlaceFacets.vals, argOf_append, argOf_facet, argOf_enumeration]
  rw [this]; exact atom_of _ (int_ne_none _)

theorem arg_maxLength : atomArg f.vals py"maxLength" = f.maxLength.map .int := by
  unfold atomArg
  have : argOf f.vals py"maxLength" = (f.maxLength.map Atom.int).map .atom := by
    simp [InPlaceFacets.vals, argOf_append, argOf_facet, argOf_enumeration]
  rw [this]; exact atom_of _ (int_ne_none _)

theorem arg_pattern : textArg f.vals py"pattern" = f.pattern := by
  unfold textArg
  have : atomArg f.vals py"pattern" = f.pattern.map .str := by
    unfold atomArg
    have : argOf f.vals py"pattern" = (f.pattern.map Atom.str).map .atom := by
      simp [InPlaceFacets.vals, argOf_append, argOf_facet, argOf_enumeration]
    rw [this]; exact atom_of _ (str_ne_none _)
  rw [this]
  cases f.pattern <;> rfl

theorem arg_enumeration : textsArg f.vals py"enumeration" = if f.enumeration = [] then none else some f.enumeration := by
  unfold textsArg
  have : argOf f.vals py"enumeration" = if f.enumeration = [] then none else some (.texts f.enumeration) := by
    simp [InPlaceFacets.vals, argOf_append, argOf_facet, argOf_enumeration]
  rw [this]
  by_cases h : f.enumeration = []
  · rw [if_pos h, if_pos h]
  · rw [if_neg h, if_neg h]

/-- The names of the arguments. -/
theorem inPlace_names {a : Str × ArgValue} (h : a ∈ f.vals) :
    a.1 = py"enumeration" ∨ a.1 = py"pattern" ∨
    (a.1 = py"minInclusive" ∧ f.minInclusive ≠ none) ∨ (a.1 = py"maxInclusive" ∧ f.maxInclusive ≠ none) ∨
    (a.1 = py"minExclusive" ∧ f.minExclusive ≠ none) ∨ (a.1 = py"maxExclusive" ∧ f.maxExclusive ≠ none) ∨
    (a.1 = py"fractionDigits" ∧ f.fractionDigits ≠ none) ∨ (a.1 = py"totalDigits" ∧ f.totalDigits ≠ none) ∨
    (a.1 = py"length" ∧ f.length ≠ none) ∨ (a.1 = py"minLength" ∧ f.minLength ≠ none) ∨
    (a.1 = py"maxLength" ∧ f.maxLength ≠ none) := by
  have key : ∀ {n : Str} {o : Option Atom}, a ∈ facetVal n o → a.1 = n ∧ o ≠ none := by
    intro n o ho
    cases o with
    | none => exact absurd ho List.not_mem_nil
    | some x =>
      have := List.mem_singleton.1 ho
      exact ⟨by rw [this], by simp⟩
  have hi : ∀ {i : Option Int}, i.map Atom.int ≠ none → i ≠ none := by intro i h h'; exact h (by rw [h']; rfl)
  unfold InPlaceFacets.vals at h
  simp only [List.mem_append] at h
  rcases h with (((((((((h | h) | h) | h) | h) | h) | h) | h) | h) | h) | h
  · left
    by_cases he : f.enumeration = []
    · rw [if_pos he] at h; exact absurd h List.not_mem_nil
    · rw [if_neg he] at h; rw [List.mem_singleton.1 h]
  · exact .inr (.inr (.inl ⟨(key h).1, hi (key h).2⟩))
  · exact .inr (.inr (.inr (.inl ⟨(key h).1, hi (key h).2⟩)))
  · exact .inr (.inr (.inr (.inr (.inl ⟨(key h).1, hi (key h).2⟩))))
  · exact .inr (.inr (.inr (.inr (.inr (.inl ⟨(key h).1, hi (key h).2⟩)))))
  · exact .inr (.inr (.inr (.inr (.inr (.inr (.inl ⟨(key h).1, hi (key h).2⟩))))))
  · exact .inr (.inr (.inr (.inr (.inr (.inr (.inr (.inl ⟨(key h).1, hi (key h).2⟩)))))))
  · exact .inr (.inl (key h).1)
  · exact .inr (.inr (.inr (.inr (.inr (.inr (.inr (.inr (.inl ⟨(key h).1, hi (key h).2⟩))))))))
  · exact .inr (.inr (.inr (.inr (.inr (.inr (.inr (.inr (.inr (.inl ⟨(key h).1, hi (key h).2⟩)))))))))
  · exact .inr (.inr (.inr (.inr (.inr (.inr (.inr (.inr (.inr (.inr ⟨(key h).1, hi (key h).2⟩)))))))))

end

end Soapfish
