import Verif.Spec.Shown
import Verif.RunSchema
import Verif.RunTableLemmas
/-
Types in the code generated from the description of a schema: nothing is lost of those that are kept.
-/
namespace Soapfish

theorem seen_present {a : Option Atom} (h : Present a) : seen a = a := by
  cases a with
  | none => rfl
  | some x => exact seen_some (h x rfl)

theorem map_str_inj {a b : Option Str} (h : a.map Atom.str = b.map Atom.str) : a = b := by
  cases a <;> cases b <;> simp_all

theorem textList_str (l : List Str) : textList? (l.map Atom.str) = some l := by
  induction l with
  | nil => rfl
  | cons a l ih => simp [textList?, ih]

/-- Texts behave alike if the same values are listed and the same pattern counts. -/
theorem strFacets_congr {compile : Str → Pattern} {t t' : TypeObj} (he : t'.enumeration.getD [] = t.enumeration.getD [])
    (hp : nonEmpty t'.pattern = nonEmpty t.pattern) (h1 : t'.length = t.length) (h2 : t'.minLength = t.minLength)
    (h3 : t'.maxLength = t.maxLength) : t'.strFacets compile = t.strFacets compile := by
  unfold TypeObj.strFacets
  rw [he, hp, h1, h2, h3]

theorem nonEmpty_seen {p q : Option Str} (h : p.map Atom.str = seen (q.map .str)) : nonEmpty p = nonEmpty q := by
  cases q with
  | none => cases p with
    | none => rfl
    | some _ => cases h
  | some s => cases s with
    | nil =>
      cases p with
      | none => rfl
      | some r => rw [show seen ((some ([] : Str)).map Atom.str) = none from rfl] at h; cases h
    | cons c cs =>
      rw [seen_present (by intro x hx; cases hx; simp [Blank])] at h
      rw [map_str_inj h]

variable {compile : Str → Pattern} {iso : Iso}

theorem stype_text {b : Builtin} {t : TypeObj} (hb : b ∈ [.string, .anyURI, .qname, .base64Binary, .duration])
    (hc : t.cls.root = some b) : t.stype compile iso = (t.strFacets compile).map .string := by
  unfold TypeObj.stype
  rw [hc]
  simp only [List.mem_cons, List.not_mem_nil, or_false] at hb
  rcases hb with rfl | rfl | rfl | rfl | rfl <;> rfl

theorem kind_text {b : Builtin} (hb : b ∈ [.string, .anyURI, .qname, .base64Binary, .duration]) : b.initKind = .text := by
  simp only [List.mem_cons, List.not_mem_nil, or_false] at hb
  rcases hb with rfl | rfl | rfl | rfl | rfl <;> rfl

/-- The type of generated code is the one restricted in place. -/
theorem kept_inPlace {t t' : TypeObj} (hs : InPlaceSurvives t) (hk : InPlaceKept t)
    (hc : callType { cls := t.cls } (valsOf t) = .ok t') : t'.stype compile iso = t.stype compile iso := by
  have hinst : ∀ b, t.cls = .builtin b → t' = instanceOf { cls := t.cls } b.initKind (valsOf t) := by
    intro b hb
    unfold callType at hc
    rw [hb] at hc
    simp only [TypeCls.root] at hc
    split at hc
    · rw [hb]; exact (Except.ok.inj hc).symm
    · cases hc
  cases hs with
  | @text b e p hb he hp =>
    generalize ht : ({ cls := .builtin b, enumeration := e, pattern := p } : TypeObj) = t at *
    have htc : t.cls = .builtin b := by rw [← ht]
    rw [hinst b htc, kind_text hb, stype_text hb (by rw [htc]; rfl), stype_text hb (by rw [htc]; rfl)]
    congr 1
    have hpl := shownEnums_plain (t := t) (by rw [← ht]; exact he)
    have hl : ∀ n, n ∉ (valsOf t).map (·.1) → atomArg (valsOf t) n = none := by
      intro n hn
      unfold atomArg argOf
      have : (valsOf t).find? (fun p => decide (p.1 = n)) = none := by
        rw [List.find?_eq_none]
        intro p hp hd
        exact hn (List.mem_map.2 ⟨p, hp, of_decide_eq_true hd⟩)
      rw [this]; rfl
    have hnames : ∀ n ∈ (valsOf t).map (·.1), n = py"enumeration" ∨ n = py"minInclusive" ∨ n = py"maxInclusive" ∨
        n = py"minExclusive" ∨ n = py"maxExclusive" ∨ n = py"fractionDigits" ∨ n = py"totalDigits" ∨ n = py"pattern" := by
      intro n hn
      obtain ⟨p, hp, rfl⟩ := List.mem_map.1 hn
      rcases vals_names hp with h | h | h | h | h | h | h | h <;> simp [h.1]
    refine strFacets_congr ?_ ?_ ?_ ?_ ?_
    · show (((textsArg (valsOf t) py"enumeration").or none).map _).getD [] = _
      rw [Option.or_none, vals_enumeration, texts_back hpl]
      by_cases hf : t.cls.FirstBaseSimple
      · exact shownEnums_simple hf
      · rw [shownEnums_other hf]
        have : t.enumeration.getD [] = [] := by
          rw [htc] at hf
          unfold InPlaceKept at hk
          rw [htc] at hk
          simp only [List.mem_cons, List.not_mem_nil, or_false] at hb
          rcases hb with rfl | rfl | rfl | rfl | rfl
          · exact absurd (by decide) hf
          all_goals exact hk
        exact this.symm
    · refine nonEmpty_seen ?_
      show (((textArg (valsOf t) py"pattern").or none).map _) = _
      rw [Option.or_none, vals_pattern]
    · rw [← ht]; show atomArg _ _ = none
      rw [ht]; exact hl _ fun h => by have := hnames _ h; revert this; decide
    · rw [← ht]; show atomArg _ _ = none
      rw [ht]; exact hl _ fun h => by have := hnames _ h; revert this; decide
    · rw [← ht]; show atomArg _ _ = none
      rw [ht]; exact hl _ fun h => by have := hnames _ h; revert this; decide
  | @decimal e p fd td mi me xe xi he hp h1 h2 h3 h4 h5 h6 =>
    generalize ht : ({ cls := .builtin .decimal, enumeration := e, pattern := p, fractionDigits := fd, totalDigits := td
                       minInclusive := mi, minExclusive := me, maxExclusive := xe, maxInclusive := xi } : TypeObj) = t at *
    have htc : t.cls = .builtin .decimal := by rw [← ht]
    unfold InPlaceKept at hk
    rw [htc] at hk
    obtain ⟨k0, k1, k2, k3, k4, k5, k6, k7⟩ := hk
    have hpl := shownEnums_plain (t := t) (by rw [← ht]; exact he)
    have : t' = t := by
      rw [hinst _ htc]
      show ({ cls := t.cls, enumeration := (textsArg (valsOf t) py"enumeration").map (·.map Atom.str)
              fractionDigits := atomArg (valsOf t) py"fractionDigits", pattern := textArg (valsOf t) py"pattern"
              minInclusive := atomArg (valsOf t) py"minInclusive", minExclusive := atomArg (valsOf t) py"minExclusive"
              maxExclusive := atomArg (valsOf t) py"maxExclusive", maxInclusive := atomArg (valsOf t) py"maxInclusive"
              totalDigits := atomArg (valsOf t) py"totalDigits" } : TypeObj) = t
      have e1 : textArg (valsOf t) py"pattern" = t.pattern := map_str_inj (by rw [vals_pattern, seen_present k1])
      have e2 : (textsArg (valsOf t) py"enumeration").map (·.map Atom.str) = t.enumeration := by
        have h := texts_back hpl
        rw [vals_enumeration]
        have hse := shownEnums_simple (t := t) (by rw [htc]; decide)
        cases hte : t.enumeration with
        | none => rw [hte] at hse; rw [hse]; rfl
        | some l =>
          rw [hte] at hse k0
          have hl : l ≠ [] := fun h => k0 (by rw [h])
          rw [hse]
          rw [hse] at h
          simp only [Option.getD_some] at h ⊢
          rw [if_neg hl] at h ⊢
          simp only [Option.map_some, Option.getD_some] at h ⊢
          rw [h]
      rw [e1, e2, vals_fractionDigits, vals_minInclusive, vals_minExclusive, vals_maxExclusive, vals_maxInclusive,
        vals_totalDigits, seen_present k2, seen_present k3, seen_present k4, seen_present k5, seen_present k6,
        seen_present k7, ← ht]
    rw [this]
  | @double b e p mi me xe xi hb hp h3 h4 h5 h6 =>
    generalize ht : ({ cls := .builtin b, enumeration := e, pattern := p, minInclusive := mi, minExclusive := me
                       maxExclusive := xe, maxInclusive := xi } : TypeObj) = t at *
    have htc : t.cls = .builtin b := by rw [← ht]
    have hb2 : b.initKind = .double ∧ ¬ t.cls.FirstBaseSimple := by
      rw [htc]
      simp only [List.mem_cons, List.not_mem_nil, or_false] at hb
      rcases hb with rfl | rfl <;> exact ⟨rfl, by decide⟩
    have hk' : t.enumeration = none ∧ Present (t.pattern.map .str) ∧ Present t.minInclusive ∧
      Present t.minExclusive ∧ Present t.maxExclusive ∧ Present t.maxInclusive := by
      unfold InPlaceKept at hk
      rw [htc] at hk
      simp only [List.mem_cons, List.not_mem_nil, or_false] at hb
      rcases hb with rfl | rfl <;> exact hk
    obtain ⟨k0, k1, k2, k3, k4, k5⟩ := hk'
    have : t' = t := by
      rw [hinst _ htc, hb2.1]
      show ({ cls := t.cls, enumeration := (textsArg (valsOf t) py"enumeration").map (·.map Atom.str)
              fractionDigits := atomArg (valsOf t) py"fractionDigits", pattern := textArg (valsOf t) py"pattern"
              minInclusive := atomArg (valsOf t) py"minInclusive", minExclusive := atomArg (valsOf t) py"minExclusive"
              maxExclusive := atomArg (valsOf t) py"maxExclusive", maxInclusive := atomArg (valsOf t) py"maxInclusive"
              totalDigits := atomArg (valsOf t) py"totalDigits" } : TypeObj) = t
      have e1 : textArg (valsOf t) py"pattern" = t.pattern := map_str_inj (by rw [vals_pattern, seen_present k1])
      rw [e1, vals_enumeration, shownEnums_other hb2.2, vals_fractionDigits, vals_minInclusive, vals_minExclusive,
        vals_maxExclusive, vals_maxInclusive, vals_totalDigits, seen_present k2, seen_present k3, seen_present k4,
        seen_present k5]
      rw [← ht] at k0 ⊢
      simp only at k0
      rw [k0]; rfl
    rw [this]
  | @integer k e td mi me xe xi hcb h2 h3 h4 h5 h6 hmin hmax =>
    generalize ht : ({ cls := .builtin (.int k), enumeration := e, pattern := some py"[-+]?[0-9]+"
                       fractionDigits := some (.int 0), totalDigits := td, minInclusive := mi, minExclusive := me
                       maxExclusive := xe, maxInclusive := xi } : TypeObj) = t at *
    have htc : t.cls = .builtin (.int k) := by rw [← ht]
    unfold InPlaceKept at hk
    rw [htc] at hk
    obtain ⟨k0, k1, k2, k3, k4, k5⟩ := hk
    have hmin' : ∀ i, Spec.minOf k = some i → t.minInclusive = some (.int i) := by rw [← ht]; exact hmin
    have hmax' : ∀ i, Spec.maxOf k = some i → t.maxInclusive = some (.int i) := by rw [← ht]; exact hmax
    have : t' = t := by
      rw [hinst _ htc]
      have hb := overrides_bounds k (atomArg (valsOf t) py"maxInclusive") (atomArg (valsOf t) py"minInclusive")
      have e3 : ((Spec.maxOf k).map Atom.int).or (atomArg (valsOf t) py"maxInclusive") = t.maxInclusive := by
        cases hm : Spec.maxOf k with
        | none => rw [vals_maxInclusive, seen_present (k5 hm)]; rfl
        | some i => rw [hmax' i hm]; rfl
      have e4 : ((Spec.minOf k).map Atom.int).or (atomArg (valsOf t) py"minInclusive") = t.minInclusive := by
        cases hm : Spec.minOf k with
        | none => rw [vals_minInclusive, seen_present (k4 hm)]; rfl
        | some i => rw [hmin' i hm]; rfl
      show ({ cls := t.cls, enumeration := (textsArg (valsOf t) py"enumeration").map (·.map Atom.str)
              fractionDigits := some (.int 0), pattern := some py"[-+]?[0-9]+"
              minInclusive := (k.facets { maxInclusive := atomArg (valsOf t) py"maxInclusive"
                                          minInclusive := atomArg (valsOf t) py"minInclusive" }).minInclusive
              minExclusive := atomArg (valsOf t) py"minExclusive"
              maxExclusive := atomArg (valsOf t) py"maxExclusive"
              maxInclusive := (k.facets { maxInclusive := atomArg (valsOf t) py"maxInclusive"
                                          minInclusive := atomArg (valsOf t) py"minInclusive" }).maxInclusive
              totalDigits := atomArg (valsOf t) py"totalDigits" } : TypeObj) = t
      rw [hb.1, hb.2, e3, e4, vals_enumeration, shownEnums_other (by rw [htc]; simp [TypeCls.FirstBaseSimple]),
        vals_minExclusive, vals_maxExclusive, vals_totalDigits, seen_present k1, seen_present k2, seen_present k3]
      rw [← ht] at k0 ⊢
      simp only at k0
      rw [k0]; rfl
    rw [this]
  | @plain b hb =>
    have h := hinst b rfl
    simp only [List.mem_cons, List.not_mem_nil, or_false] at hb
    rcases hb with rfl | rfl | rfl | rfl <;> (rw [h]; rfl)

/-- An instance of a class without arguments behaves like that of generated code. -/
theorem kept_bare {b : Builtin} {cls : TypeCls} (hr : cls.root = some b) {e : Option (List Atom)} {p : Option Str}
    (hpl : PlainEnums e) {t : TypeObj} (h : BareType b cls e p t) (o : SimpleObj) (ho : o.cls = cls)
    (he : o.enumeration = if e.getD [] = [] then none else some ((e.getD []).map fun a => textOf a.text?))
    (hp : (facetOf o.facets py"pattern").map Atom.str = seen (p.map .str)) :
    (instanceOf o b.initKind []).stype compile iso = t.stype compile iso := by
  cases h with
  | text hb =>
    rw [kind_text hb, stype_text hb (by show o.cls.root = _; rw [ho, hr]), stype_text hb hr]
    congr 1
    refine strFacets_congr ?_ ?_ rfl rfl rfl
    · show (((textsArg [] py"enumeration").or o.enumeration).map _).getD [] = _
      rw [show textsArg [] py"enumeration" = none from rfl, Option.none_or, he, texts_back hpl]
    · refine nonEmpty_seen ?_
      show (((textArg [] py"pattern").or (facetOf o.facets py"pattern")).map _) = _
      rw [show textArg [] py"pattern" = none from rfl, Option.none_or, hp]
  | number hb =>
    have : instanceOf o b.initKind [] = { cls := o.cls } := by
      simp only [List.mem_cons, List.not_mem_nil, or_false] at hb
      rcases hb with rfl | rfl | rfl <;> rfl
    rw [this, ho]
  | @integer k hb =>
    subst hb
    have hb := overrides_bounds k none none
    have : instanceOf o (Builtin.int k).initKind [] =
        { cls := o.cls, fractionDigits := some (.int 0), pattern := some py"[-+]?[0-9]+"
          minInclusive := (k.facets { maxInclusive := none, minInclusive := none }).minInclusive
          maxInclusive := (k.facets { maxInclusive := none, minInclusive := none }).maxInclusive } := rfl
    rw [this, hb.1, hb.2, ho, Option.or_none, Option.or_none]
  | other hb htc =>
    have hoc : (instanceOf o b.initKind []).cls = o.cls := by
      unfold instanceOf
      cases b.initKind <;> rfl
    unfold TypeObj.stype
    rw [htc, hoc, ho, hr]
    simp only [List.mem_cons, List.not_mem_nil, or_false] at hb
    rcases hb with rfl | rfl | rfl | rfl <;> rfl

end Soapfish
