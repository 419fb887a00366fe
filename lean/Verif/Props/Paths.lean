import Verif.Paths
import Verif.Spec.Paths
import Verif.QueryLemmas
/-
Locations of documents (C67, C74).
-/
namespace Soapfish

/-! ### Following paths -/

/-- A component that names something. -/
def Proper (c : Str) : Prop := c ≠ [] ∧ c ≠ py"." ∧ c ≠ py".." ∧ '/' ∉ c

/-- Where an absolute path leads. -/
def rooted (p : Str) : List Str := (splitOn '/' p).foldl goTo []

theorem goTo_proper {d : List Str} {c : Str} (hd : ∀ x ∈ d, Proper x) (hc : '/' ∉ c) : ∀ x ∈ goTo d c, Proper x := by
  unfold goTo
  split
  · exact hd
  · rename_i h1
    split
    · intro x hx
      exact hd x (List.dropLast_subset _ hx)
    · rename_i h2
      intro x hx
      rcases List.mem_append.1 hx with hx | hx
      · exact hd x hx
      · simp only [List.mem_singleton] at hx
        subst hx
        exact ⟨fun h => h1 (.inl h), fun h => h1 (.inr h), h2, hc⟩

theorem follow_proper {cs : List Str} (hcs : ∀ c ∈ cs, '/' ∉ c) {d : List Str} (hd : ∀ x ∈ d, Proper x) :
    ∀ x ∈ cs.foldl goTo d, Proper x := by
  induction cs generalizing d with
  | nil => exact hd
  | cons c cs ih =>
    exact ih (fun c hc => hcs c (by simp [hc])) (goTo_proper hd (hcs c (by simp)))

theorem rooted_proper (p : Str) : ∀ x ∈ rooted p, Proper x :=
  follow_proper (fun _ hc => splitOn_sep p _ hc) (by simp)

theorem normStep_goTo {d : List Str} (hd : ∀ x ∈ d, Proper x) (c : Str) : normStep true d c = goTo d c := by
  unfold normStep goTo
  split
  · rfl
  · by_cases hc : c = py".."
    · have h1 : ¬ (c ≠ py".." ∨ (true = false ∧ d = []) ∨ d.getLast? = some py"..") := by
        rintro (h | h | h)
        · exact h hc
        · cases h.1
        · exact (hd _ (List.mem_of_getLast? h)).2.2.1 rfl
      rw [if_neg h1, if_pos hc]
    · rw [if_pos (.inl hc), if_neg hc]

theorem norm_follow {cs : List Str} (hcs : ∀ c ∈ cs, '/' ∉ c) {d : List Str} (hd : ∀ x ∈ d, Proper x) :
    cs.foldl (normStep true) d = cs.foldl goTo d := by
  induction cs generalizing d with
  | nil => rfl
  | cons c cs ih =>
    rw [List.foldl_cons, List.foldl_cons, normStep_goTo hd]
    exact ih (fun c hc => hcs c (by simp [hc])) (goTo_proper hd (hcs c (by simp)))

theorem splitOn_append (a b : Str) : splitOn '/' (a ++ '/' :: b) = splitOn '/' a ++ splitOn '/' b := by
  induction a with
  | nil => simp [splitOn]
  | cons c cs ih =>
    have e : ∀ t, splitOn '/' (c :: t) = if c = '/' then [] :: splitOn '/' t
        else match splitOn '/' t with | w :: ws => (c :: w) :: ws | [] => [[c]] := fun t => rfl
    rw [List.cons_append, e, e, ih]
    split
    · rfl
    · cases h : splitOn '/' cs with
      | nil => exact absurd h (splitOn_ne cs)
      | cons w ws => rfl

theorem splitOn_intercalate {l : List Str} (hl : l ≠ []) (h : ∀ x ∈ l, '/' ∉ x) : splitOn '/' (['/'].intercalate l) = l :=
  (joined_iff.1 ⟨hl, h, rfl⟩).symm

theorem filter_proper {l : List Str} (h : ∀ x ∈ l, Proper x) : l.filter (fun x => decide (x ≠ [])) = l := by
  rw [List.filter_eq_self]
  intro x hx
  simpa using (h x hx).1

theorem absolute_starts {p : Str} (h : Absolute p) : startsWith py"/" p = true := by
  cases p with
  | nil => cases h
  | cons c cs =>
    injection h with h
    subst h
    simp [startsWith]

theorem initialSlashes_abs {p : Str} (h : Absolute p) : initialSlashes p = py"/" ∨ initialSlashes p = py"//" := by
  unfold initialSlashes
  split
  · exact .inr rfl
  · rw [absolute_starts h]; exact .inl rfl

theorem normPath_abs {p : Str} (h : Absolute p) : normPath p = initialSlashes p ++ ['/'].intercalate (rooted p) := by
  unfold normPath
  rw [if_neg (by rintro rfl; cases h), absolute_starts h, norm_follow (fun _ hc => splitOn_sep p _ hc) (by simp)]
  simp only
  rw [if_neg]
  · rfl
  · rcases initialSlashes_abs h with e | e <;> rw [e] <;> simp

theorem normPath_absolute {p : Str} (h : Absolute p) : Absolute (normPath p) := by
  rw [normPath_abs h]
  unfold Absolute
  rcases initialSlashes_abs h with e | e <;> rw [e] <;> rfl

theorem normPath_parts {p : Str} (h : Absolute p) :
    (splitOn '/' (normPath p)).filter (fun x => decide (x ≠ [])) = rooted p := by
  have hpr := rooted_proper p
  rw [normPath_abs h]
  have key : (splitOn '/' (['/'].intercalate (rooted p))).filter (fun x => decide (x ≠ [])) = rooted p := by
    by_cases hn : rooted p = []
    · rw [hn]; rfl
    · rw [splitOn_intercalate hn fun x hx => (hpr x hx).2.2.2, filter_proper hpr]
  rcases initialSlashes_abs h with e | e <;> rw [e]
  · show (splitOn '/' ([] ++ '/' :: ['/'].intercalate (rooted p))).filter _ = _
    rw [splitOn_append]
    rw [List.filter_append, key]
    rfl
  · show (splitOn '/' ([] ++ '/' :: ([] ++ '/' :: ['/'].intercalate (rooted p)))).filter _ = _
    rw [splitOn_append, splitOn_append]
    rw [List.filter_append, List.filter_append, key]
    rfl

theorem absParts_abs {wd p : Str} (h : Absolute p) : absParts wd p = rooted p := by
  unfold absParts absPath
  rw [absolute_starts h, if_pos rfl]
  exact normPath_parts h

theorem goTo_skip (d : List Str) : goTo d [] = d := by simp [goTo]

theorem foldl_skip (parts : List Str) (d : List Str) : (parts.filter fun x => decide (x ≠ [])).foldl goTo d = parts.foldl goTo d := by
  induction parts generalizing d with
  | nil => rfl
  | cons c cs ih =>
    by_cases hc : c = []
    · subst hc
      rw [List.filter_cons_of_neg (by simp), List.foldl_cons, goTo_skip]
      exact ih d
    · rw [List.filter_cons_of_pos (by simpa using hc), List.foldl_cons, List.foldl_cons]
      exact ih _

theorem foldl_down {l : List Str} (h : ∀ x ∈ l, Proper x) (d : List Str) : l.foldl goTo d = d ++ l := by
  induction l generalizing d with
  | nil => simp
  | cons c cs ih =>
    have hc := h c (by simp)
    have : goTo d c = d ++ [c] := by
      unfold goTo
      rw [if_neg (by rintro (h | h); exact hc.1 h; exact hc.2.1 h), if_neg hc.2.2.1]
    rw [List.foldl_cons, this, ih fun x hx => h x (by simp [hx])]
    simp

theorem rooted_norm {p : Str} (h : Absolute p) : rooted (normPath p) = rooted p := by
  unfold rooted
  rw [← foldl_skip, normPath_parts h, foldl_down (rooted_proper p)]
  rfl

/-! ### Relative paths -/

theorem commonLen_le (a b : List Str) : commonLen a b ≤ a.length ∧ commonLen a b ≤ b.length ∧
    a.take (commonLen a b) = b.take (commonLen a b) := by
  induction a generalizing b with
  | nil => simp [commonLen]
  | cons x xs ih =>
    cases b with
    | nil => simp [commonLen]
    | cons y ys =>
      unfold commonLen
      split
      · rename_i h
        subst h
        obtain ⟨h1, h2, h3⟩ := ih ys
        simp [h1, h2, h3]
      · simp

theorem foldl_up (k : Nat) (d : List Str) : (List.replicate k py"..").foldl goTo d = d.take (d.length - k) := by
  induction k generalizing d with
  | zero => simp
  | succ k ih =>
    have : goTo d py".." = d.dropLast := by simp [goTo]
    rw [List.replicate_succ, List.foldl_cons, this, ih, List.dropLast_eq_take, List.take_take]
    congr 1
    simp
    omega

theorem pathJoin_plain {a b : Str} (ha : a ≠ [] ∧ a.getLast? ≠ some '/') (hb : b.head? ≠ some '/') :
    pathJoin a b = a ++ '/' :: b := by
  unfold pathJoin
  rw [if_neg, if_neg]
  · rintro (h | h)
    · exact ha.1 h
    · exact ha.2 h
  · cases b with
    | nil => simp [startsWith]
    | cons c cs =>
      simp only [startsWith, List.isPrefixOf_cons_cons, List.isPrefixOf_nil_left, Bool.and_true, beq_iff_eq]
      intro h
      exact hb (by rw [← h]; rfl)

theorem pathJoinAll_eq {l : List Str} (h : ∀ x ∈ l, x ≠ [] ∧ '/' ∉ x) : pathJoinAll l = ['/'].intercalate l := by
  cases l with
  | nil => rfl
  | cons p ps =>
    show ps.foldl pathJoin p = _
    have last : ∀ x : Str, x ≠ [] ∧ '/' ∉ x → x.getLast? ≠ some '/' := fun x hx e => hx.2 (List.mem_of_getLast? e)
    have head : ∀ x : Str, x ≠ [] ∧ '/' ∉ x → x.head? ≠ some '/' := fun x hx e => hx.2 (List.mem_of_head? e)
    have key : ∀ (ps : List Str) (p : Str), p ≠ [] ∧ p.getLast? ≠ some '/' → (∀ x ∈ ps, x ≠ [] ∧ '/' ∉ x) →
        ps.foldl pathJoin p = ['/'].intercalate (p :: ps) := by
      intro ps
      induction ps with
      | nil => intro p _ _; simp [List.intercalate]
      | cons q qs ih =>
        intro p hp hq
        have hq1 := hq q (by simp)
        rw [List.foldl_cons, pathJoin_plain hp (head q hq1), ih _ ?_ fun x hx => hq x (by simp [hx])]
        · cases qs <;> simp [List.intercalate, List.intersperse]
        · refine ⟨by simp, ?_⟩
          rw [List.getLast?_append, List.getLast?_cons]
          cases hl : q.getLast? with
          | none => simp at hl; exact absurd hl hq1.1
          | some c =>
            simp only [Option.getD_some]
            intro e
            exact last q hq1 (by rw [hl]; simpa using e)
    exact key ps p ⟨(h p (by simp)).1, last p (h p (by simp))⟩ fun x hx => h x (by simp [hx])

/-- The relative path from one directory to a file. -/
def relParts (d f : List Str) : List Str :=
  List.replicate (d.length - commonLen d f) py".." ++ f.drop (commonLen d f)

theorem relPath_abs {wd p start : Str} (hp : Absolute p) (hs : Absolute start) :
    relPath wd p start = .ok (if relParts (rooted start) (rooted p) = [] then py"."
      else ['/'].intercalate (relParts (rooted start) (rooted p))) := by
  unfold relPath
  rw [if_neg (by rintro rfl; cases hp), absParts_abs hp, absParts_abs hs]
  have : ∀ x ∈ relParts (rooted start) (rooted p), x ≠ [] ∧ '/' ∉ x := by
    intro x hx
    rcases List.mem_append.1 hx with hx | hx
    · rw [List.mem_replicate] at hx
      rw [hx.2]
      decide
    · have := rooted_proper p x (List.mem_of_mem_drop hx)
      exact ⟨this.1, this.2.2.2⟩
  have e := pathJoinAll_eq this
  unfold relParts at e ⊢
  simp only [e]

theorem relParts_leads {d f : List Str} (hf : ∀ x ∈ f, Proper x) : (relParts d f).foldl goTo d = f := by
  obtain ⟨h1, h2, h3⟩ := commonLen_le d f
  unfold relParts
  rw [List.foldl_append, foldl_up, foldl_down fun x hx => hf x (List.mem_of_mem_drop hx)]
  have : d.length - (d.length - commonLen d f) = commonLen d f := by omega
  rw [this, h3, List.take_append_drop]

/-- The text `relpath` gives. -/
def relText (d f : List Str) : Str := if relParts d f = [] then py"." else ['/'].intercalate (relParts d f)

theorem relParts_ne {d f : List Str} (hf : ∀ x ∈ f, Proper x) : ∀ x ∈ relParts d f, x ≠ [] ∧ '/' ∉ x := by
  intro x hx
  rcases List.mem_append.1 hx with hx | hx
  · rw [List.mem_replicate] at hx
    rw [hx.2]
    decide
  · have := hf x (List.mem_of_mem_drop hx)
    exact ⟨this.1, this.2.2.2⟩

theorem head_intercalate {p : Str} {ps : List Str} (hp : p ≠ []) : (['/'].intercalate (p :: ps)).head? = p.head? := by
  cases p with
  | nil => exact absurd rfl hp
  | cons c cs => cases ps <;> simp [List.intercalate, List.intersperse]

theorem relText_stands {d f : List Str} (hf : ∀ x ∈ f, Proper x) : StandsFor d (relText d f) f := by
  have hne := relParts_ne (d := d) hf
  have hl := relParts_leads (d := d) hf
  unfold relText
  by_cases h : relParts d f = []
  · rw [if_pos h]
    rw [h] at hl
    refine ⟨[py"."], ⟨by simp, by decide, by decide⟩, ?_⟩
    rw [← hl]
    rfl
  · rw [if_neg h]
    refine ⟨relParts d f, ⟨h, fun x hx => (hne x hx).2, rfl⟩, ?_⟩
    rw [if_neg, hl]
    obtain ⟨p, ps, hp⟩ := List.exists_cons_of_ne_nil h
    rw [hp] at hne ⊢
    rw [head_intercalate (hne p (by simp)).1]
    intro e
    exact (hne p (by simp)).2 (List.mem_of_head? e)

theorem stands_abs {p : Str} (h : Absolute p) (d : List Str) : StandsFor d p (rooted p) :=
  ⟨_, joined_iff.2 rfl, by unfold Absolute at h; rw [if_pos h]; rfl⟩

theorem stands_iff {d f : List Str} {p : Str} :
    StandsFor d p f ↔ f = (splitOn '/' p).foldl goTo (if p.head? = some '/' then [] else d) := by
  constructor
  · rintro ⟨parts, hj, rfl⟩
    rw [joined_iff.1 hj]
  · rintro rfl
    exact ⟨_, joined_iff.2 rfl, rfl⟩

theorem rooted_append (a b : Str) : rooted (a ++ '/' :: b) = (splitOn '/' b).foldl goTo (rooted a) := by
  unfold rooted
  rw [splitOn_append, List.foldl_append]

theorem rooted_slash (a : Str) : rooted (a ++ ['/']) = rooted a := by
  rw [rooted_append]
  simp [splitOn, goTo_skip]

/-- Joining follows the second path from where the first one leads. -/
theorem rooted_join {cwd path : Str} (hc : Absolute cwd) :
    Absolute (pathJoin cwd path) ∧ StandsFor (rooted cwd) path (rooted (pathJoin cwd path)) := by
  unfold pathJoin
  by_cases hp : path.head? = some '/'
  · rw [if_pos (absolute_starts hp)]
    exact ⟨hp, stands_abs hp _⟩
  · rw [if_neg ?_]
    · have hne : cwd ≠ [] := by rintro rfl; cases hc
      have habs : ∀ s, Absolute (cwd ++ s) := by
        intro s
        unfold Absolute at hc ⊢
        cases cwd with
        | nil => exact absurd rfl hne
        | cons c cs => exact hc
      refine ⟨by split <;> exact habs _, ?_⟩
      rw [stands_iff, if_neg hp]
      split
      · rename_i h
        rcases h with h | h
        · exact absurd h hne
        · obtain ⟨ys, rfl⟩ := List.getLast?_eq_some_iff.1 h
          rw [List.append_assoc, List.singleton_append, rooted_append, rooted_slash]
      · rw [rooted_append]
    · cases path with
      | nil => simp [startsWith]
      | cons c cs =>
        simp only [startsWith, List.isPrefixOf_cons_cons, List.isPrefixOf_nil_left, Bool.and_true, beq_iff_eq]
        intro h
        exact hp (by rw [← h]; rfl)

theorem isUrl_iff {s : Str} : IsUrl s ↔ hasSub py"://" s = true := by
  constructor
  · rintro ⟨a, b, rfl⟩
    induction a with
    | nil => simp [hasSub]
    | cons c cs ih =>
      simp only [List.cons_append, hasSub, Bool.or_eq_true]
      exact .inr ih
  · intro h
    induction s with
    | nil => simp [hasSub] at h
    | cons c cs ih =>
      rw [hasSub, Bool.or_eq_true] at h
      rcases h with h | h
      · obtain ⟨t, ht⟩ := List.isPrefixOf_iff_prefix.1 h
        exact ⟨[], t, by simpa using ht.symm⟩
      · obtain ⟨a, b, rfl⟩ := ih h
        exact ⟨c :: a, b, by simp⟩

theorem takeWhile_mem {q : Char → Bool} {l : List Char} {c : Char} (h : c ∈ l.takeWhile q) : q c = true := by
  induction l with
  | nil => simp at h
  | cons x xs ih =>
    rw [List.takeWhile_cons] at h
    split at h
    · rename_i hx
      rcases List.mem_cons.1 h with rfl | h
      · exact hx
      · exact ih h
    · simp at h

theorem first_slash {l : Str} (h : '/' ∈ l) : ∃ s t, l = s ++ '/' :: t ∧ '/' ∉ s := by
  induction l with
  | nil => simp at h
  | cons x xs ih =>
    by_cases hx : x = '/'
    · exact ⟨[], xs, by rw [hx]; rfl, by simp⟩
    · rcases List.mem_cons.1 h with h | h
      · exact absurd h.symm hx
      · obtain ⟨s, t, rfl, hs⟩ := ih h
        exact ⟨x :: s, t, rfl, by simp only [List.mem_cons, not_or]; exact ⟨fun e => hx e.symm, hs⟩⟩

theorem rstripSlash_eq (s : Str) : ∃ k, s = rstripSlash s ++ List.replicate k '/' := by
  unfold rstripSlash
  have := List.takeWhile_append_dropWhile (p := fun c => decide (c = '/')) (l := s.reverse)
  have ht : s.reverse.takeWhile (fun c => decide (c = '/')) =
      List.replicate (s.reverse.takeWhile (fun c => decide (c = '/'))).length '/' := by
    rw [List.eq_replicate_iff]
    refine ⟨rfl, fun c hc => ?_⟩
    simpa using takeWhile_mem hc
  refine ⟨(s.reverse.takeWhile (fun c => decide (c = '/'))).length, ?_⟩
  conv => lhs; rw [← List.reverse_reverse s, ← this, List.reverse_append, ht, List.reverse_replicate]

theorem rooted_slashes (a : Str) (k : Nat) : rooted (a ++ List.replicate k '/') = rooted a := by
  induction k with
  | zero => simp
  | succ k ih => rw [List.replicate_succ', ← List.append_assoc, rooted_slash, ih]

theorem upToSlash_eq {p : Str} (h : '/' ∈ p) : ∃ pre base, upToSlash p = pre ++ ['/'] ∧ p = pre ++ '/' :: base ∧ '/' ∉ base := by
  obtain ⟨base, pre, hp, hn⟩ : ∃ base pre, p.reverse = base ++ '/' :: pre ∧ '/' ∉ base := by
    have : '/' ∈ p.reverse := by simpa using h
    obtain ⟨s, t, he, hs⟩ := first_slash this
    exact ⟨s, t, he, hs⟩
  have hp' : p = pre.reverse ++ '/' :: base.reverse := by
    rw [← List.reverse_reverse p, hp]; simp
  refine ⟨pre.reverse, base.reverse, ?_, hp', by simpa using hn⟩
  unfold upToSlash
  rw [hp]
  have : (base ++ '/' :: pre).dropWhile (fun c => decide (c ≠ '/')) = '/' :: pre := by
    rw [List.dropWhile_append_of_pos]
    · simp
    · intro c hc
      simp only [ne_eq, decide_not, Bool.not_eq_eq_eq_not, Bool.not_true, decide_eq_false_iff_not]
      rintro rfl
      exact hn hc
  rw [this]
  simp

theorem dirName_eq {p : Str} (h : Absolute p) : Absolute (dirName p) ∧ ∃ pre base, p = pre ++ '/' :: base ∧ '/' ∉ base ∧
    rooted (dirName p) = rooted pre := by
  obtain ⟨pre, base, hu, hp, hb⟩ := upToSlash_eq (p := p) (List.mem_of_head? h)
  have habs : Absolute (pre ++ ['/']) := by
    unfold Absolute at h ⊢
    rw [hp] at h
    cases pre <;> exact h
  have key : Absolute (dirName p) ∧ rooted (dirName p) = rooted pre := by
    unfold dirName
    simp only [hu]
    split
    · rename_i hc
      obtain ⟨k, hk⟩ := rstripSlash_eq (pre ++ ['/'])
      constructor
      · unfold Absolute at habs ⊢
        rw [hk] at habs
        cases hr : rstripSlash (pre ++ ['/']) with
        | nil =>
          rw [hr, List.nil_append] at hk
          exact absurd (by rw [hk]; simp) hc.2
        | cons c cs => rw [hr] at habs; exact habs
      · rw [← rooted_slashes _ k, ← hk, rooted_slash]
    · exact ⟨habs, rooted_slash pre⟩
  exact ⟨key.1, pre, base, hp, hb, key.2⟩

theorem relText_not_url {d f : List Str} (hf : ∀ x ∈ f, Proper x) : ¬ IsUrl (relText d f) := by
  rintro ⟨a, b, he⟩
  have hne := relParts_ne (d := d) hf
  unfold relText at he
  split at he
  · have := congrArg List.length he
    simp at this
    omega
  · rename_i h
    have hs := splitOn_intercalate h fun x hx => (hne x hx).2
    rw [he] at hs
    have : (a ++ py"://" ++ b) = (a ++ [':']) ++ '/' :: ([] ++ '/' :: b) := by simp
    rw [this, splitOn_append, splitOn_append] at hs
    exact (hne [] (by rw [← hs]; simp [splitOn])).1 rfl

theorem relText_rel {d f : List Str} (hf : ∀ x ∈ f, Proper x) : (relText d f).head? ≠ some '/' := by
  have hne := relParts_ne (d := d) hf
  unfold relText
  split
  · decide
  · rename_i h
    obtain ⟨p, ps, hp⟩ := List.exists_cons_of_ne_nil h
    rw [hp] at hne ⊢
    rw [head_intercalate (hne p (by simp)).1]
    intro e
    exact (hne p (by simp)).2 (List.mem_of_head? e)

theorem stands_unique {d f g : List Str} {p : Str} (h : StandsFor d p f) (h' : StandsFor d p g) : f = g := by
  rw [stands_iff] at h h'
  rw [h, h']

theorem stands_proper {d f : List Str} {p : Str} (hd : ∀ x ∈ d, Proper x) (h : StandsFor d p f) : ∀ x ∈ f, Proper x := by
  rw [stands_iff] at h
  rw [h]
  apply follow_proper fun _ hc => splitOn_sep p _ hc
  split
  · simp
  · exact hd

theorem rooted_of_stands {p : Str} (h : Absolute p) {d f : List Str} (hs : StandsFor d p f) : f = rooted p :=
  stands_unique hs (stands_abs h d)

theorem resolve_local {wd path cwd : Str} (hc : Absolute cwd) (hu : ¬ IsUrl path) : ∃ p, p = pathJoin cwd path ∧
    resolveLocation wd path cwd = .ok (p, dirName p, relText (rooted cwd) (rooted p)) := by
  refine ⟨_, rfl, ?_⟩
  unfold resolveLocation
  rw [isUrl_iff] at hu
  rw [if_neg hu]
  simp only [relPath_abs (rooted_join (path := path) hc).1 hc]
  rfl

/-! ### C67 -/

/-- C67: a URL is left alone: document, directory and identification are what was given. -/
theorem C67_url (wd path cwd : Str) (h : IsUrl path) : resolveLocation wd path cwd = .ok (path, cwd, path) := by
  unfold resolveLocation
  rw [if_pos (isUrl_iff.1 h)]

/-- C67: any other location, in a document of the directory `cwd`, resolves. The path to open is absolute and stands for
the file the location stands for in that directory, and so does the identification, which is relative and never a URL.
The new directory is the one of the file: the last part of the path, seen from there, is the file. -/
theorem C67_file (wd path cwd : Str) (hc : Absolute cwd) (h : ¬ IsUrl path) (d f : List Str) (hd : StandsFor [] cwd d)
    (hf : StandsFor d path f) : ∃ p dir loc, resolveLocation wd path cwd = .ok (p, dir, loc) ∧
      Absolute p ∧ StandsFor [] p f ∧ StandsFor d loc f ∧ ¬ Absolute loc ∧ ¬ IsUrl loc ∧
      Absolute dir ∧ ∃ e pre base, StandsFor [] dir e ∧ p = pre ++ '/' :: base ∧ '/' ∉ base ∧ StandsFor e base f := by
  have hdc := rooted_of_stands hc hd
  subst hdc
  obtain ⟨p, hp, hr⟩ := resolve_local (wd := wd) hc h
  obtain ⟨ha, hs⟩ := rooted_join (path := path) hc
  rw [← hp] at ha hs
  have hfp := stands_unique hf hs
  subst hfp
  obtain ⟨hda, pre, base, he, hb, hrd⟩ := dirName_eq ha
  refine ⟨_, _, _, hr, ha, stands_abs ha _, relText_stands (rooted_proper p), relText_rel (rooted_proper p),
    relText_not_url (rooted_proper p), hda, rooted (dirName p), pre, base, stands_abs hda _, he, hb, ?_⟩
  rw [stands_iff, if_neg, hrd]
  · conv => lhs; rw [he, rooted_append]
  · intro hh
    exact hb (List.mem_of_head? hh)

/-- C67: the identification depends on the directory and the file alone, not on how the location was written: two
locations in the same directory are identified alike exactly when they stand for the same file. -/
theorem C67_same (wd p1 p2 cwd : Str) (hc : Absolute cwd) (h1 : ¬ IsUrl p1) (h2 : ¬ IsUrl p2) (d f1 f2 : List Str)
    (hd : StandsFor [] cwd d) (hf1 : StandsFor d p1 f1) (hf2 : StandsFor d p2 f2) (a1 a2 b1 b2 l1 l2 : Str)
    (hr1 : resolveLocation wd p1 cwd = .ok (a1, b1, l1)) (hr2 : resolveLocation wd p2 cwd = .ok (a2, b2, l2)) :
    l1 = l2 ↔ f1 = f2 := by
  have hdc := rooted_of_stands hc hd
  subst hdc
  have key : ∀ {p f a b l}, ¬ IsUrl p → StandsFor (rooted cwd) p f → resolveLocation wd p cwd = .ok (a, b, l) →
      l = relText (rooted cwd) f ∧ StandsFor (rooted cwd) l f := by
    intro p f a b l hu hf hr
    obtain ⟨q, hq, hr'⟩ := resolve_local (wd := wd) hc hu
    have := stands_unique hf (hq ▸ (rooted_join (path := p) hc).2)
    subst this
    rw [hr'] at hr
    injection hr with hr
    injection hr with _ hr
    injection hr with _ hr
    subst hr
    exact ⟨rfl, relText_stands (rooted_proper q)⟩
  obtain ⟨e1, s1⟩ := key h1 hf1 hr1
  obtain ⟨e2, s2⟩ := key h2 hf2 hr2
  constructor
  · rintro rfl
    exact stands_unique s1 s2
  · rintro rfl
    rw [e1, e2]

/-! ### C74 -/

theorem rewrite_local {wd cwd base l : Str} (urljoin : Str → Str → Str) (hb : Absolute base) (hc : Absolute cwd)
    (hcu : ¬ IsUrl cwd) (hu : ¬ IsUrl l) : rewriteLocation wd urljoin cwd base (some l) =
      .ok (some (relText (rooted base) (rooted (pathJoin cwd l)))) := by
  unfold rewriteLocation
  simp only
  rw [isUrl_iff] at hcu hu
  rw [if_neg hu, if_neg hcu, relPath_abs (normPath_absolute (rooted_join (path := l) hc).1) hb,
    rooted_norm (rooted_join (path := l) hc).1]
  rfl

/-- C74: locations that are missing or URLs are kept; in a document that came from a URL they are resolved against it. -/
theorem C74_kept (wd : Str) (urljoin : Str → Str → Str) (cwd base : Str) :
    rewriteLocation wd urljoin cwd base none = .ok none ∧
    (∀ l, IsUrl l → rewriteLocation wd urljoin cwd base (some l) = .ok (some l)) ∧
    ∀ l, ¬ IsUrl l → IsUrl cwd → rewriteLocation wd urljoin cwd base (some l) = .ok (some (urljoin cwd l)) := by
  refine ⟨rfl, fun l h => ?_, fun l h hc => ?_⟩
  · unfold rewriteLocation
    simp only
    rw [if_pos (isUrl_iff.1 h)]
  · unfold rewriteLocation
    rw [isUrl_iff] at h hc
    simp only
    rw [if_neg h, if_pos hc]

/-- C74: a location in a document of the directory `cwd` is rewritten to one that stands, seen from the base directory,
for the same file. Resolving the rewritten location against the base directory identifies the file by exactly the
rewritten text and opens that file. -/
theorem C74_rewrite (wd : Str) (urljoin : Str → Str → Str) (cwd base l : Str) (hb : Absolute base) (hc : Absolute cwd)
    (hcu : ¬ IsUrl cwd) (hu : ¬ IsUrl l) (c b f : List Str) (hcd : StandsFor [] cwd c) (hbd : StandsFor [] base b)
    (hf : StandsFor c l f) : ∃ l', rewriteLocation wd urljoin cwd base (some l) = .ok (some l') ∧ StandsFor b l' f ∧
      ¬ IsUrl l' ∧ ∃ p dir, resolveLocation wd l' base = .ok (p, dir, l') ∧ StandsFor [] p f := by
  have h1 := rooted_of_stands hc hcd
  have h2 := rooted_of_stands hb hbd
  subst h1 h2
  have h3 := stands_unique hf (rooted_join (path := l) hc).2
  subst h3
  have hpr := rooted_proper (pathJoin cwd l)
  have hst := relText_stands (d := rooted base) hpr
  refine ⟨_, rewrite_local urljoin hb hc hcu hu, hst, relText_not_url hpr, ?_⟩
  obtain ⟨p, hp, hr⟩ := resolve_local (wd := wd) hb (relText_not_url (d := rooted base) hpr)
  have hj := rooted_join (path := relText (rooted base) (rooted (pathJoin cwd l))) hb
  rw [← hp] at hj
  have := stands_unique hst hj.2
  refine ⟨p, dirName p, ?_, ?_⟩
  · rw [hr, ← this]
  · rw [this]
    exact stands_abs hj.1 _

/-- C74: locations in different documents of different directories are rewritten alike exactly when they stand for the
same file, so that the rewritten location identifies the file. -/
theorem C74_same (wd : Str) (urljoin : Str → Str → Str) (cwd1 cwd2 base l1 l2 : Str) (hb : Absolute base)
    (hc1 : Absolute cwd1) (hc2 : Absolute cwd2) (hcu1 : ¬ IsUrl cwd1) (hcu2 : ¬ IsUrl cwd2) (hu1 : ¬ IsUrl l1)
    (hu2 : ¬ IsUrl l2) (c1 c2 f1 f2 : List Str) (hd1 : StandsFor [] cwd1 c1) (hd2 : StandsFor [] cwd2 c2)
    (hf1 : StandsFor c1 l1 f1) (hf2 : StandsFor c2 l2 f2) :
    rewriteLocation wd urljoin cwd1 base (some l1) = rewriteLocation wd urljoin cwd2 base (some l2) ↔ f1 = f2 := by
  have h1 := rooted_of_stands hc1 hd1
  have h2 := rooted_of_stands hc2 hd2
  subst h1 h2
  have e1 := stands_unique hf1 (rooted_join (path := l1) hc1).2
  have e2 := stands_unique hf2 (rooted_join (path := l2) hc2).2
  rw [rewrite_local urljoin hb hc1 hcu1 hu1, rewrite_local urljoin hb hc2 hcu2 hu2, ← e1, ← e2]
  have s1 := relText_stands (d := rooted base) (f := f1) (by rw [e1]; exact rooted_proper _)
  have s2 := relText_stands (d := rooted base) (f := f2) (by rw [e2]; exact rooted_proper _)
  constructor
  · intro h
    injection h with h
    injection h with h
    rw [← h] at s2
    exact stands_unique s1 s2
  · rintro rfl
    rfl

/-! ### Examples -/

/-- A location with '..' and '.' in it. -/
example : resolveLocation py"/tmp" py"../common/./types.xsd" py"/srv/wsdl" =
    .ok (py"/srv/wsdl/../common/./types.xsd", py"/srv/wsdl/../common/.", py"../common/types.xsd") := by decide +kernel

example : resolveLocation py"/tmp" py"http://a/b.xsd" py"/srv/wsdl" = .ok (py"http://a/b.xsd", py"/srv/wsdl", py"http://a/b.xsd") := by
  decide +kernel

/-- The same file from two directories, relative to a third. -/
example : rewriteLocation py"/tmp" (fun _ l => l) py"/srv/wsdl/../common/." py"/srv/wsdl" (some py"base.xsd") =
      .ok (some py"../common/base.xsd") ∧
    rewriteLocation py"/tmp" (fun _ l => l) py"/srv/wsdl" py"/srv/wsdl" (some py"/srv//common/x/../base.xsd") =
      .ok (some py"../common/base.xsd") := by decide +kernel

example : StandsFor [py"srv", py"wsdl"] py"../common/base.xsd" [py"srv", py"common", py"base.xsd"] :=
  stands_iff.2 (by decide +kernel)

end Soapfish
