import Verif.Spec.Strings
import Verif.RegexLemmas
import Verif.SimpleLemmas
/-!
Properties of String and Boolean types: C05, C07, C08, C09.
-/
namespace Soapfish
open Spec

/-! ### White space -/

theorem wsReplace_spec (s t : Str) : Replaced s t ↔ t = wsReplace s := by
  constructor
  · rintro ⟨h1, h2⟩
    apply List.ext_getElem
    · simp [wsReplace, h1]
    · intro i hi hi'
      rw [h2 i (by omega) hi]
      simp [wsReplace]
  · rintro rfl
    refine ⟨by simp [wsReplace], ?_⟩
    intro i h h'
    simp [wsReplace]

theorem wsCollapse_true_run (s : Str) : wsCollapse true s = wsCollapse true (s.dropWhile isSpace) := by
  induction s with
  | nil => rfl
  | cons c cs ih =>
    by_cases h : isSpace c = true
    · simp [wsCollapse, h, List.dropWhile, ih]
    · simp [List.dropWhile, h]

theorem wsCollapse_flag (s : Str) (h : ∀ c, s.head? = some c → isSpace c = false) (b : Bool) :
    wsCollapse b s = wsCollapse false s := by
  cases s with
  | nil => cases b <;> rfl
  | cons c cs => simp [wsCollapse, h c rfl]

theorem dropWhile_head (s : Str) (c : Char) (h : (s.dropWhile isSpace).head? = some c) : isSpace c = false := by
  induction s with
  | nil => simp at h
  | cons d ds ih =>
    by_cases hd : isSpace d = true
    · simp [List.dropWhile, hd] at h; exact ih h
    · simp [List.dropWhile, hd] at h
      subst h; simpa using hd

theorem mem_takeWhile (s : Str) (c : Char) (h : c ∈ s.takeWhile isSpace) : isSpace c = true := by
  induction s with
  | nil => simp at h
  | cons d ds ih =>
    by_cases hd : isSpace d = true
    · simp only [List.takeWhile, hd, List.mem_cons] at h
      rcases h with rfl | h
      · exact hd
      · exact ih h
    · simp [List.takeWhile, hd] at h

theorem wsCollapse_run (r s : Str) (hr : ∀ c ∈ r, isSpace c = true)
    (hs : ∀ c, s.head? = some c → isSpace c = false) : wsCollapse true (r ++ s) = wsCollapse false s := by
  induction r with
  | nil => exact wsCollapse_flag s hs true
  | cons c cs ih =>
    simp only [List.cons_append, wsCollapse, hr c (by simp), if_true]
    exact ih (fun d hd => hr d (by simp [hd]))

theorem wsCollapse_spec (s t : Str) : Collapsed s t ↔ t = wsCollapse false s := by
  constructor
  · intro h
    induction h with
    | nil => rfl
    | char hc _ ih => simp [wsCollapse, hc, ih]
    | @run r s t hne hr hs _ ih =>
      cases r with
      | nil => exact absurd rfl hne
      | cons c cs =>
        simp only [List.cons_append, wsCollapse, hr c (by simp), if_true, Bool.false_eq_true, if_false]
        rw [wsCollapse_run cs s (fun d hd => hr d (by simp [hd])) hs, ih]
  · rintro rfl
    induction h : s.length using Nat.strongRecOn generalizing s with
    | ind n ih =>
      cases s with
      | nil => exact .nil
      | cons c cs =>
        by_cases hc : isSpace c = true
        · have hw : wsCollapse false (c :: cs) = ' ' :: wsCollapse false (cs.dropWhile isSpace) := by
            simp only [wsCollapse, hc, if_true, Bool.false_eq_true, if_false]
            rw [wsCollapse_true_run, wsCollapse_flag _ (dropWhile_head cs)]
          rw [hw]
          have hsplit : c :: cs = (c :: cs.takeWhile isSpace) ++ cs.dropWhile isSpace := by
            simp [List.takeWhile_append_dropWhile]
          rw [hsplit]
          refine .run (by simp) ?_ (dropWhile_head cs) ?_
          · intro d hd
            simp only [List.mem_cons] at hd
            rcases hd with rfl | hd
            · exact hc
            · exact mem_takeWhile cs d hd
          · refine ih _ ?_ _ rfl
            have := (List.dropWhile_suffix (l := cs) isSpace).length_le
            simp at h; omega
        · have hc' : isSpace c = false := by simpa using hc
          simp only [wsCollapse, hc', Bool.false_eq_true, if_false]
          refine .char hc' (ih _ ?_ _ rfl)
          simp at h; omega

theorem normalised_iff (ws : WS) (s t : Str) : Normalised ws s t ↔ t = cleanWhitespace ws s := by
  cases ws with
  | replace => exact wsReplace_spec s t
  | collapse => exact wsCollapse_spec s t
  | preserve => exact Iff.rfl
  | other => exact Iff.rfl

theorem isSpace_space : isSpace ' ' = true := by decide

theorem wsReplace_idem (s : Str) : wsReplace (wsReplace s) = wsReplace s := by
  simp only [wsReplace, List.map_map]
  apply List.map_congr_left
  intro c _
  simp only [Function.comp]
  by_cases h : isSpace c = true <;> simp [h]

theorem wsCollapse_idem (s : Str) (b : Bool) : wsCollapse b (wsCollapse b s) = wsCollapse b s := by
  induction s generalizing b with
  | nil => rfl
  | cons c cs ih =>
    by_cases hc : isSpace c = true
    · cases b with
      | true => simp only [wsCollapse, hc, if_true]; exact ih true
      | false => simp [wsCollapse, hc, isSpace_space, ih true]
    · simp [wsCollapse, hc, ih false]

theorem cleanWhitespace_idem (ws : WS) (s : Str) :
    cleanWhitespace ws (cleanWhitespace ws s) = cleanWhitespace ws s := by
  cases ws <;> simp [cleanWhitespace, wsReplace_idem, wsCollapse_idem]

/-- C07: a String with only a whiteSpace facet stores exactly the normal form of the text given. -/
theorem C07_whitespace (ws : WS) (s t : Str) :
    (SType.string (StrFacets.init {} { ws := some ws })).accept (.str s) = .ok (.str t) ↔ Normalised ws s t := by
  rw [normalised_iff]
  simp only [SType.accept, stringAccept, StrFacets.init, ifGiven, truthy?, Option.getD]
  simp only [bind_ok, raiseIf_eq]
  simp [bind_ok, eq_comm]

/-- C07: 'replace' keeps the length and every non-white character in place. -/
theorem C07_replace_length {s t : Str} (h : Normalised .replace s t) :
    t.length = s.length ∧ ∀ i (h1 : i < s.length) (h2 : i < t.length), isSpace s[i] = false → t[i] = s[i] := by
  refine ⟨h.1, ?_⟩
  intro i h1 h2 hc
  rw [h.2 i h1 h2]; simp [hc]

/-- C07: 'collapse' keeps all non-white characters in order, and leaves no two adjacent white-space characters and no
white space other than the space character. -/
theorem C07_collapse_chars {s t : Str} (h : Normalised .collapse s t) :
    t.filter (fun c => !isSpace c) = s.filter (fun c => !isSpace c) ∧
    (∀ c ∈ t, isSpace c = true → c = ' ') ∧
    (∀ u v a b, t = u ++ a :: b :: v → ¬ (isSpace a = true ∧ isSpace b = true)) := by
  have h' : Collapsed s t := h
  clear h
  suffices hh : t.filter (fun c => !isSpace c) = s.filter (fun c => !isSpace c) ∧
    (∀ c ∈ t, isSpace c = true → c = ' ') ∧
    (∀ u v a b, t = u ++ a :: b :: v → ¬ (isSpace a = true ∧ isSpace b = true)) ∧
    (∀ c, t.head? = some c → isSpace c = false ∨ ∃ d, s.head? = some d ∧ isSpace d = true) by
    exact ⟨hh.1, hh.2.1, hh.2.2.1⟩
  induction h' with
  | nil =>
    refine ⟨rfl, by simp, ?_, by simp⟩
    intro u v a b h; simp at h
  | @char c s t hc _ ih =>
    obtain ⟨h1, h2, h3, _⟩ := ih
    refine ⟨by simp [hc, h1], ?_, ?_, ?_⟩
    · intro d hd hs
      simp only [List.mem_cons] at hd
      rcases hd with rfl | hd
      · rw [hc] at hs; cases hs
      · exact h2 d hd hs
    · intro u v a b he
      cases u with
      | nil =>
        simp only [List.nil_append, List.cons.injEq] at he
        rw [← he.1, hc]; simp
      | cons x u =>
        simp only [List.cons_append, List.cons.injEq] at he
        exact h3 u v a b he.2
    · intro d hd; simp at hd; subst hd; exact .inl hc
  | @run r s t hne hr hs _ ih =>
    obtain ⟨h1, h2, h3, h4⟩ := ih
    refine ⟨?_, ?_, ?_, ?_⟩
    · rw [List.filter_append]
      have : r.filter (fun c => !isSpace c) = [] := by
        rw [List.filter_eq_nil_iff]; intro a ha; simp [hr a ha]
      simp [this, h1, isSpace_space]
    · intro d hd hsd
      simp only [List.mem_cons] at hd
      rcases hd with rfl | hd
      · rfl
      · exact h2 d hd hsd
    · intro u v a b he
      cases u with
      | nil =>
        simp only [List.nil_append, List.cons.injEq] at he
        rintro ⟨_, hb⟩
        rcases h4 b (by simp [he.2]) with h | ⟨d, hd, hd'⟩
        · rw [h] at hb; cases hb
        · rw [hs d hd] at hd'; cases hd'
      | cons x u =>
        simp only [List.cons_append, List.cons.injEq] at he
        exact h3 u v a b he.2
    · intro d hd
      right
      cases r with
      | nil => exact absurd rfl hne
      | cons x xs => exact ⟨x, rfl, hr x (by simp)⟩

example : Normalised .collapse py" a \t\n b" py" a b" := by rw [normalised_iff]; decide
example : Normalised .replace py"\ta \n" py" a  " := by rw [normalised_iff]; decide

/-! ### C05 -/

theorem patternAccepts_iff (p : Pattern) (s : Str) : p.matches s = true ↔ PatternAccepts p s := by
  simp only [Pattern.matches, Bool.or_eq_true, List.any_eq_true, Re.pre_iff, Re.dollar_iff, PatternAccepts]

theorem lenOk_iff (P : Int → Prop) [DecidablePred P] (o : Option Int) (b : Int → Bool) (hb : ∀ n, b n = true ↔ ¬ P n) :
    ifGiven (truthy? o) (fun n => raiseIf (b n) .valueError) = .ok () ∧ LenOk P o ∨
    ifGiven (truthy? o) (fun n => raiseIf (b n) .valueError) = .error .valueError ∧ ¬ LenOk P o := by
  cases o with
  | none => exact .inl ⟨rfl, trivial⟩
  | some n =>
    by_cases hn : n = 0
    · left; subst hn; exact ⟨rfl, .inl rfl⟩
    · have ht : truthy? (some n) = some n := by simp [truthy?, hn]
      rw [ht]
      simp only [ifGiven, LenOk, hn, false_or]
      by_cases hp : P n
      · left
        have : b n = false := by rw [← Bool.not_eq_true, hb]; exact fun h => h hp
        exact ⟨by rw [this]; rfl, hp⟩
      · right
        exact ⟨by rw [(hb n).2 hp]; rfl, hp⟩

theorem guard_cases {α} {x : Except Exn Unit} {P : Prop} (k : Except Exn α)
    (h : x = .ok () ∧ P ∨ x = .error .valueError ∧ ¬ P) :
    P ∧ (x >>= fun _ => k) = k ∨ ¬ P ∧ (x >>= fun _ => k) = .error .valueError := by
  rcases h with ⟨rfl, hp⟩ | ⟨rfl, hp⟩
  · exact .inl ⟨hp, rfl⟩
  · exact .inr ⟨hp, rfl⟩

/-- C05: a str is accepted exactly when its normal form satisfies all facets in force, and then the normal form is
stored; otherwise ValueError. -/
theorem C05_string_facets (cls : StrFacets) (a : StrArgs) (s t : Str)
    (ht : Normalised (a.ws.getD cls.ws) s t) :
    let ty := SType.string (cls.init a)
    (StrOk cls a t ∧ ty.accept (.str s) = .ok (.str t)) ∨
    (¬ StrOk cls a t ∧ ty.accept (.str s) = .error .valueError) := by
  intro ty
  rw [normalised_iff] at ht
  have hc : cleanWhitespace (cls.init a).ws s = t := ht.symm
  have hp : ifGiven (cls.init a).pattern (fun p => raiseIf (!p.matches t) .valueError) = .ok () ∧
      (∀ p, given a.pattern cls.pattern = some p → PatternAccepts p t) ∨
      ifGiven (cls.init a).pattern (fun p => raiseIf (!p.matches t) .valueError) = .error .valueError ∧
      ¬ (∀ p, given a.pattern cls.pattern = some p → PatternAccepts p t) := by
    have : (cls.init a).pattern = given a.pattern cls.pattern := by
      simp only [StrFacets.init]; cases a.pattern <;> rfl
    rw [this]
    cases given a.pattern cls.pattern with
    | none => left; exact ⟨rfl, by simp⟩
    | some p =>
      by_cases h : p.matches t = true
      · left
        refine ⟨by simp [ifGiven, h], ?_⟩
        intro q hq; injection hq with hq; subst hq; exact (patternAccepts_iff p t).1 h
      · right
        refine ⟨by simp [ifGiven, h], ?_⟩
        intro hall; exact h ((patternAccepts_iff p t).2 (hall p rfl))
  have he : raiseIf (!(cls.init a).enumeration.isEmpty && !(cls.init a).enumeration.contains t) .valueError = .ok () ∧
      (a.enumeration.getD cls.enumeration = [] ∨ t ∈ a.enumeration.getD cls.enumeration) ∨
      raiseIf (!(cls.init a).enumeration.isEmpty && !(cls.init a).enumeration.contains t) .valueError =
        .error .valueError ∧
      ¬ (a.enumeration.getD cls.enumeration = [] ∨ t ∈ a.enumeration.getD cls.enumeration) := by
    show raiseIf (!(a.enumeration.getD cls.enumeration).isEmpty && !(a.enumeration.getD cls.enumeration).contains t) _
        = _ ∧ _ ∨ raiseIf (!(a.enumeration.getD cls.enumeration).isEmpty &&
        !(a.enumeration.getD cls.enumeration).contains t) _ = _ ∧ _
    generalize a.enumeration.getD cls.enumeration = e
    cases e with
    | nil => left; exact ⟨rfl, .inl rfl⟩
    | cons x xs =>
      by_cases h : t ∈ x :: xs
      · left; exact ⟨by simp only [raiseIf, List.contains_iff_mem.2 h]; simp, .inr h⟩
      · right
        refine ⟨?_, by simpa using h⟩
        have : (x :: xs).contains t = false := by rw [← Bool.not_eq_true, List.contains_iff_mem]; exact h
        rw [this]; rfl
  have hlen : (cls.init a).length = given a.length cls.length := by
    simp only [StrFacets.init]; cases a.length <;> rfl
  have hmin : (cls.init a).minLength = given a.minLength cls.minLength := by
    simp only [StrFacets.init]; cases a.minLength <;> rfl
  have hmax : (cls.init a).maxLength = given a.maxLength cls.maxLength := by
    simp only [StrFacets.init]; cases a.maxLength <;> rfl
  have h1 := lenOk_iff (fun n => (t.length : Int) = n) (given a.length cls.length)
    (fun n => (t.length : Int) != n) (by intro n; simp)
  have h2 := lenOk_iff (fun n => n ≤ (t.length : Int)) (given a.minLength cls.minLength)
    (fun n => decide ((t.length : Int) < n)) (by intro n; simp)
  have h3 := lenOk_iff (fun n => (t.length : Int) ≤ n) (given a.maxLength cls.maxLength)
    (fun n => decide ((t.length : Int) > n)) (by intro n; simp)
  simp only [ty, SType.accept, stringAccept, hc]
  rw [hlen, hmin, hmax]
  rcases hp with ⟨e1, p1⟩ | ⟨e1, p1⟩
  · rw [e1, bind_ok]
    rcases he with ⟨e2, p2⟩ | ⟨e2, p2⟩
    · rw [e2, bind_ok]
      rcases h1 with ⟨e3, p3⟩ | ⟨e3, p3⟩
      · rw [e3, bind_ok]
        rcases h2 with ⟨e4, p4⟩ | ⟨e4, p4⟩
        · rw [e4, bind_ok]
          rcases h3 with ⟨e5, p5⟩ | ⟨e5, p5⟩
          · rw [e5, bind_ok]; exact .inl ⟨⟨p1, p2, p3, p4, p5⟩, rfl⟩
          · rw [e5]; exact .inr ⟨fun h => p5 h.maxLength, rfl⟩
        · rw [e4]; exact .inr ⟨fun h => p4 h.minLength, rfl⟩
      · rw [e3]; exact .inr ⟨fun h => p3 h.length, rfl⟩
    · rw [e2]; exact .inr ⟨fun h => p2 h.enumeration, rfl⟩
  · rw [e1]; exact .inr ⟨fun h => p1 h.pattern, rfl⟩

/-- C05: every text has a normal form, so the previous theorem decides every str. -/
theorem C05_normal_form_exists (ws : WS) (s : Str) : ∃ t, Normalised ws s t ∧ ∀ t', Normalised ws s t' → t' = t :=
  ⟨cleanWhitespace ws s, (normalised_iff ws s _).2 rfl, fun t' h => (normalised_iff ws s t').1 h⟩

/-- C05: None is stored as None and every other non-str raises ValueError. -/
theorem C05_non_string (f : StrFacets) (v : Atom) (hv : ∀ s, v ≠ .str s) :
    (SType.string f).accept v = if v = .none then .ok .none else .error .valueError := by
  cases v <;> simp_all [SType.accept, stringAccept]

example : StrOk {} { minLength := some 2, enumeration := some [py"ab", py"c"] } py"ab" :=
  ⟨by intro p h; simp [given] at h, .inr (by decide), trivial, .inr (by decide), trivial⟩
example : ¬ StrOk { maxLength := some 1 } {} py"ab" :=
  fun h => by have := h.maxLength; revert this; simp [LenOk, given]

/-! ### C08 -/

/-- C08: under a pattern without top-level alternation, an accepted value with no trailing newline is in the language
of the pattern as a whole. -/
theorem C08_pattern_whole (cls : StrFacets) (a : StrArgs) (r : Re) (s t : Str)
    (hp : given a.pattern cls.pattern = some ⟨[], r⟩)
    (h : (SType.string (cls.init a)).accept (.str s) = .ok (.str t)) (hn : t.getLast? ≠ some '\n') : r.Lang t := by
  have hnorm : Normalised (a.ws.getD cls.ws) s (cleanWhitespace (a.ws.getD cls.ws) s) := (normalised_iff _ _ _).2 rfl
  rcases C05_string_facets cls a s _ hnorm with ⟨hok, he⟩ | ⟨_, he⟩
  · rw [he] at h
    injection h with h; injection h with h
    subst h
    rcases hok.pattern _ hp with ⟨r, hr, _⟩ | hl | ⟨u, hu, _⟩
    · cases hr
    · exact hl
    · rw [hu] at hn; simp at hn
  · rw [he] at h; cases h

/-- C08: the exact set of texts accepted under a pattern alone. -/
theorem C08_pattern_exact (p : Pattern) (s : Str) :
    (SType.string (StrFacets.init {} { pattern := some p })).accept (.str s) = .ok (.str s) ↔ PatternAccepts p s := by
  rcases C05_string_facets {} { pattern := some p } s s ((normalised_iff _ _ _).2 rfl) with ⟨h, he⟩ | ⟨h, he⟩
  · exact ⟨fun _ => h.pattern p rfl, fun _ => he⟩
  · constructor
    · intro h'; rw [he] at h'; cases h'
    · intro hpa
      exact absurd ⟨by intro q hq; injection hq with hq; subst hq; exact hpa, .inl rfl, trivial, trivial, trivial⟩ h

/-- C08: an alternative other than the last accepts any continuation of a match. -/
theorem C08_alternation_prefix (p : Pattern) (r : Re) (hr : r ∈ p.init) (u v : Str) (hu : r.Lang u) :
    (SType.string (StrFacets.init {} { pattern := some p })).accept (.str (u ++ v)) = .ok (.str (u ++ v)) :=
  (C08_pattern_exact p _).2 (.inl ⟨r, hr, u, v, rfl, hu⟩)

/-- `a|b` accepts "axx", which is not in its language. -/
example : let p : Pattern := ⟨[Re.chr 'a'], Re.chr 'b'⟩
    (SType.string (StrFacets.init {} { pattern := some p })).accept (.str py"axx") = .ok (.str py"axx") ∧
    ¬ p.Lang py"axx" := by
  refine ⟨C08_alternation_prefix _ (Re.chr 'a') (by simp) py"a" py"xx" (.cls (by decide)), ?_⟩
  rintro (⟨r, hr, hl⟩ | hl)
  · simp at hr; subst hr; rw [← Re.full_iff] at hl; revert hl; decide
  · rw [← Re.full_iff] at hl; revert hl; decide

/-! ### C09 -/

/-- C09: what a Boolean field stores. -/
theorem C09_boolean_accept (v : Atom) :
    (SType.boolean.accept v = .ok v ∧ (v = .none ∨ v.eqv (.bool true) = true ∨ v.eqv (.bool false) = true)) ∨
    (SType.boolean.accept v = .error .valueError ∧ v ≠ .none ∧ v.eqv (.bool true) = false ∧
      v.eqv (.bool false) = false) := by
  simp only [SType.accept, boolAccept]
  by_cases h1 : v.eqv (.bool true) = true <;> by_cases h2 : v.eqv (.bool false) = true <;> by_cases h3 : v = .none <;>
    simp_all

/-- C09: True and False are written and read back; None reads back as None. -/
theorem C09_boolean_roundtrip (b : Bool) :
    SType.boolean.accept (.bool b) = .ok (.bool b) ∧
    SType.boolean.xmlvalue (.bool b) = .ok (some (if b then py"true" else py"false")) ∧
    SType.boolean.pythonvalue (.str (if b then py"true" else py"false")) = .ok (.bool b) := by
  cases b <;> decide

/-- C09: every text other than the three known ones raises ValueError. -/
theorem C09_boolean_text (s : Str) :
    SType.boolean.pythonvalue (.str s) =
      if s = py"true" then .ok (.bool true) else if s = py"false" then .ok (.bool false)
      else if s = py"nil" then .ok .none else .error .valueError := by
  simp only [SType.pythonvalue, boolPy, Atom.str.injEq, reduceCtorEq, or_false]
  by_cases h1 : s = py"false"
  · subst h1; decide
  · simp [h1]

/-- C09: a stored value renders exactly when it is True, False or None; other stored values (0, 1, 0.0, 1.0, ...) make
rendering raise ValueError. -/
theorem C09_boolean_render (v : Atom) (h : SType.boolean.accept v = .ok v) :
    (v = .none ∨ v = .bool true ∨ v = .bool false) ∧ (∃ s, SType.boolean.xmlvalue v = .ok (some s)) ∨
    (∃ x, v.num? = some x) ∧ (∀ b, v ≠ .bool b) ∧ SType.boolean.xmlvalue v = .error .valueError := by
  rcases C09_boolean_accept v with ⟨_, h⟩ | ⟨h', _⟩
  · cases v with
    | none => exact .inl ⟨.inl rfl, _, rfl⟩
    | bool b => cases b <;> exact .inl ⟨by simp, _, rfl⟩
    | int i => exact .inr ⟨⟨_, rfl⟩, by simp, rfl⟩
    | float i => exact .inr ⟨⟨_, rfl⟩, by simp, rfl⟩
    | decimal i => exact .inr ⟨⟨_, rfl⟩, by simp, rfl⟩
    | unbounded => exact .inr ⟨⟨_, rfl⟩, by simp, rfl⟩
    | str s => simp [Atom.eqv, Atom.num?] at h
    | xsdDate d tz => simp [Atom.eqv, Atom.num?] at h
    | date d => simp [Atom.eqv, Atom.num?] at h
    | datetime d t tz => simp [Atom.eqv, Atom.num?] at h
    | time t tz => simp [Atom.eqv, Atom.num?] at h
    | other n => simp [Atom.eqv, Atom.num?] at h
  · rw [h'] at h; cases h

/-- The ints a Boolean field takes are 0 and 1. -/
theorem C09_boolean_int (i : Int) :
    SType.boolean.accept (.int i) = if i = 0 ∨ i = 1 then .ok (.int i) else .error .valueError := by
  have e1 : (Atom.int i).eqv (.bool true) = decide (i = 1) := by
    have := int_eqv i 1
    simpa [Atom.eqv, Atom.num?] using this
  have e0 : (Atom.int i).eqv (.bool false) = decide (i = 0) := by
    have := int_eqv i 0
    simpa [Atom.eqv, Atom.num?] using this
  simp only [SType.accept, boolAccept, e1, e0]
  by_cases h0 : i = 0 <;> by_cases h1 : i = 1 <;> simp [h0, h1]

example : SType.boolean.accept (.int 1) = .ok (.int 1) ∧ SType.boolean.xmlvalue (.int 1) = .error .valueError := by decide

end Soapfish
