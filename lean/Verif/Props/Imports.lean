import Verif.Imports
import Verif.Spec.Imports
import Verif.Props.Paths
/-
Order of schemas (C66) and merging of imported documents (C75, C76).
-/
namespace Soapfish

/-! ### `reorder_schemas` -/

/-- Which of the schemas `l` are taken at once, given the targets so far; the rest is postponed. -/
def takeSchemas (targets : List (Option Str)) : List WsdlSchema → List WsdlSchema × List WsdlSchema
  | [] => ([], [])
  | s :: l =>
    if s.imports.any (fun i => decide (i ∉ targets)) then
      let r := takeSchemas targets l
      (r.1, s :: r.2)
    else
      let r := takeSchemas (s.target :: targets) l
      (s :: r.1, r.2)

theorem reorderLoop_eq (l post schemas : List WsdlSchema) (targets : List (Option Str)) :
    (reorderLoop l.length (l ++ post) schemas targets).1 ++ (reorderLoop l.length (l ++ post) schemas targets).2 =
      schemas ++ (takeSchemas targets l).1 ++ post ++ (takeSchemas targets l).2 := by
  induction l generalizing post schemas targets with
  | nil => simp [reorderLoop, takeSchemas]
  | cons s l ih =>
    rw [List.length_cons, List.cons_append]
    unfold reorderLoop takeSchemas
    by_cases hi : s.imports.any (fun i => decide (i ∉ targets)) = true
    · rw [if_pos hi]
      by_cases hx : l ++ post = []
      · rw [if_neg (by simp [hx])]
        obtain ⟨rfl, rfl⟩ := List.append_eq_nil_iff.1 hx
        simp [reorderLoop, takeSchemas]
      · rw [if_pos ⟨hx, hi⟩, List.append_assoc, ih]
        simp
    · rw [if_neg hi, if_neg fun h => hi h.2, ih]
      simp

theorem reorder_eq (l : List WsdlSchema) : reorderSchemas l = (takeSchemas [] l).1 ++ (takeSchemas [] l).2 := by
  have := reorderLoop_eq l [] [] []
  simpa [reorderSchemas] using this

theorem takeSchemas_perm (targets : List (Option Str)) (l : List WsdlSchema) :
    ((takeSchemas targets l).1 ++ (takeSchemas targets l).2).Perm l := by
  induction l generalizing targets with
  | nil => simp [takeSchemas]
  | cons s l ih =>
    unfold takeSchemas
    split
    · exact List.perm_middle.trans ((ih targets).cons s)
    · exact (ih _).cons s

/-- C66: reordering ends for every list and gives the same schemas in some order. -/
theorem C66_permutation (l : List WsdlSchema) : (reorderSchemas l).Perm l := by
  rw [reorder_eq]
  exact takeSchemas_perm [] l

theorem takeSchemas_all {targets : List (Option Str)} {l : List WsdlSchema}
    (h : ∀ l1 s l2, l = l1 ++ s :: l2 → ∀ n ∈ s.imports, n ∈ targets ∨ ∃ t ∈ l1, t.target = n) :
    takeSchemas targets l = (l, []) := by
  induction l generalizing targets with
  | nil => rfl
  | cons s l ih =>
    unfold takeSchemas
    rw [if_neg, ih]
    · intro l1 t l2 e n hn
      rcases h (s :: l1) t l2 (by rw [e]; rfl) n hn with h | ⟨u, hu, e'⟩
      · exact .inl (List.mem_cons_of_mem _ h)
      · rcases List.mem_cons.1 hu with rfl | hu
        · exact .inl (by rw [← e']; simp)
        · exact .inr ⟨u, hu, e'⟩
    · rw [List.any_eq_true]
      rintro ⟨n, hn, hd⟩
      rcases h [] s l rfl n hn with h | ⟨u, hu, _⟩
      · simp [h] at hd
      · simp at hu

/-- C66: schemas that already come after the ones they import stay in place. -/
theorem C66_ordered (l : List WsdlSchema)
    (h : ∀ l1 s l2, l = l1 ++ s :: l2 → ∀ n ∈ s.imports, ∃ t ∈ l1, t.target = n) : reorderSchemas l = l := by
  rw [reorder_eq, takeSchemas_all (fun l1 s l2 e n hn => .inr (h l1 s l2 e n hn))]
  simp

theorem takeSchemas_leaf {targets : List (Option Str)} {l : List WsdlSchema} {t : WsdlSchema} (ht : t ∈ l)
    (hl : t.imports = []) : t ∈ (takeSchemas targets l).1 := by
  induction l generalizing targets with
  | nil => simp at ht
  | cons s l ih =>
    unfold takeSchemas
    split
    · rename_i h
      rcases List.mem_cons.1 ht with rfl | ht
      · simp [hl] at h
      · exact ih ht
    · rcases List.mem_cons.1 ht with rfl | ht
      · simp
      · exact List.mem_cons_of_mem _ (ih ht)

theorem takeSchemas_sub {targets : List (Option Str)} {l : List WsdlSchema} {t : WsdlSchema}
    (ht : t ∈ (takeSchemas targets l).1) : t ∈ l :=
  (takeSchemas_perm targets l).subset (List.mem_append.2 (.inl ht))

theorem takeSchemas_taken {targets : List (Option Str)} {l l1 l2 : List WsdlSchema} {s : WsdlSchema}
    (h : (takeSchemas targets l).1 = l1 ++ s :: l2) : ∀ n ∈ s.imports, n ∈ targets ∨ ∃ t ∈ l1, t.target = n := by
  induction l generalizing targets l1 with
  | nil => simp [takeSchemas] at h
  | cons u l ih =>
    unfold takeSchemas at h
    split at h
    · exact ih h
    · rename_i hi
      intro n hn
      cases l1 with
      | nil =>
        simp only [List.nil_append, List.cons.injEq] at h
        rw [h.1] at hi
        left
        exact Decidable.byContradiction fun hc => hi (List.any_eq_true.2 ⟨n, hn, by simpa using hc⟩)
      | cons v l1 =>
        simp only [List.cons_append, List.cons.injEq] at h
        rcases ih h.2 n hn with h' | ⟨t, ht, e⟩
        · rcases List.mem_cons.1 h' with rfl | h'
          · exact .inr ⟨v, by simp, by rw [h.1]⟩
          · exact .inl h'
        · exact .inr ⟨t, by simp [ht], e⟩

theorem before_append {α : Type} {a b : α} {l1 l2 : List α} (ha : a ∈ l1) (hb : b ∈ l2) : Before (l1 ++ l2) a b := by
  obtain ⟨p, q, rfl⟩ := List.append_of_mem ha
  obtain ⟨r, s, rfl⟩ := List.append_of_mem hb
  exact ⟨p, q ++ r, s, by simp⟩

theorem before_within {α : Type} {a b : α} {p l2 l : List α} (ha : a ∈ p) : Before (p ++ b :: l2 ++ l) a b := by
  obtain ⟨x, y, rfl⟩ := List.append_of_mem ha
  exact ⟨x, y, l2 ++ l, by simp⟩

/-- C66: every schema comes after the schemas it imports that import nothing themselves, when no two schemas have the
same target namespace. -/
theorem C66_leaves (l : List WsdlSchema) (hu : ∀ a ∈ l, ∀ b ∈ l, a.target = b.target → a = b) (s t : WsdlSchema)
    (hs : s ∈ l) (ht : t ∈ l) (hi : t.target ∈ s.imports) (hl : t.imports = []) : Before (reorderSchemas l) t s := by
  rw [reorder_eq]
  have h1 := takeSchemas_leaf (targets := []) ht hl
  rcases List.mem_append.1 ((takeSchemas_perm [] l).symm.subset hs) with hs | hs
  · obtain ⟨p, q, e⟩ := List.append_of_mem hs
    rcases takeSchemas_taken e _ hi with h | ⟨t', ht', e'⟩
    · simp at h
    · have : t' = t := hu _ (takeSchemas_sub (targets := []) (by rw [e]; simp [ht'])) _ ht e'
      subst this
      rw [e]
      exact before_within ht'
  · exact before_append h1 hs

/-- C66: deeper imports may come out of order even though an order exists: of a schema importing a second one importing
a third, in this order, the first one ends up before the second one. -/
theorem C66_chain (a b c : Str) :
    let s1 : WsdlSchema := ⟨some a, [some b], 1⟩
    let s2 : WsdlSchema := ⟨some b, [some c], 2⟩
    let s3 : WsdlSchema := ⟨some c, [], 3⟩
    reorderSchemas [s1, s2, s3] = [s3, s1, s2] ∧ ¬ Before (reorderSchemas [s1, s2, s3]) s2 s1 ∧
      ∀ l1 s l2, [s3, s2, s1] = l1 ++ s :: l2 → ∀ n ∈ s.imports, ∃ t ∈ l1, t.target = n := by
  simp only
  have e : reorderSchemas [⟨some a, [some b], 1⟩, ⟨some b, [some c], 2⟩, ⟨some c, [], 3⟩] =
      [⟨some c, [], 3⟩, ⟨some a, [some b], 1⟩, ⟨some b, [some c], 2⟩] := by
    simp [reorderSchemas, reorderLoop]
  refine ⟨e, ?_, ?_⟩
  · rw [e]
    rintro ⟨l1, l2, l3, he⟩
    rcases l1 with _ | ⟨x1, _ | ⟨x2, _ | ⟨x3, l1⟩⟩⟩ <;> simp at he
  · intro l1 s l2 he n hn
    rcases l1 with _ | ⟨x1, _ | ⟨x2, _ | ⟨x3, l1⟩⟩⟩ <;> simp at he
    · rw [← he.1] at hn; simp at hn
    · rw [← he.2.1] at hn
      simp only [List.mem_singleton] at hn
      exact ⟨x1, by simp, by rw [← he.1, hn]⟩
    · rw [← he.2.2.1] at hn
      simp only [List.mem_singleton] at hn
      exact ⟨x2, by simp, by rw [← he.2.1, hn]⟩

/-- Two schemas importing two plain ones. -/
example : reorderSchemas [⟨some py"a", [some py"x", some py"y"], 1⟩, ⟨some py"x", [], 2⟩, ⟨some py"b", [some py"x"], 3⟩,
      ⟨some py"y", [], 4⟩] =
    [⟨some py"x", [], 2⟩, ⟨some py"b", [some py"x"], 3⟩, ⟨some py"y", [], 4⟩, ⟨some py"a", [some py"x", some py"y"], 1⟩] := by
  decide +kernel

/-- Schemas importing each other. -/
example : reorderSchemas [⟨some py"a", [some py"b"], 1⟩, ⟨some py"b", [some py"a"], 2⟩] =
    [⟨some py"a", [some py"b"], 1⟩, ⟨some py"b", [some py"a"], 2⟩] := by decide +kernel

/-! ### `merge_imports` -/

theorem dedupAux_mem (seen l : List Nat) (x : Nat) : x ∈ dedupAux seen l ↔ x ∈ l ∧ x ∉ seen := by
  induction l generalizing seen with
  | nil => simp [dedupAux]
  | cons y ys ih =>
    unfold dedupAux
    split
    · rename_i h
      rw [ih]
      constructor
      · exact fun ⟨h1, h2⟩ => ⟨List.mem_cons_of_mem _ h1, h2⟩
      · rintro ⟨h1, h2⟩
        rcases List.mem_cons.1 h1 with rfl | h1
        · exact absurd h h2
        · exact ⟨h1, h2⟩
    · rename_i h
      rw [List.mem_cons, ih]
      by_cases hx : x = y
      · subst hx; simp [h]
      · simp [hx]

theorem dedupAux_nodup (seen l : List Nat) : (dedupAux seen l).Nodup := by
  induction l generalizing seen with
  | nil => simp [dedupAux]
  | cons y ys ih =>
    unfold dedupAux
    split
    · exact ih seen
    · rw [List.nodup_cons]
      refine ⟨fun h => ?_, ih _⟩
      exact ((dedupAux_mem _ _ _).1 h).2 (by simp)

theorem dedup_mem (l : List Nat) (x : Nat) : x ∈ deduplicate l ↔ x ∈ l := by
  simp [deduplicate, dedupAux_mem]

theorem dedup_nodup (l : List Nat) : (deduplicate l).Nodup := dedupAux_nodup [] l

theorem absorb_mem (i d : Definitions) (k : Content5) (x : Nat) : x ∈ k.of (absorb i d) ↔ x ∈ k.of i ∨ x ∈ k.of d := by
  cases k
  · simp only [Content5.of, absorb]
    split
    · rename_i h; simp [h]
    · rw [dedup_mem]; simp
  all_goals simp [Content5.of, absorb, dedup_mem]

theorem absorb_nodup (i d : Definitions) (k : Content5) (h : (k.of d).Nodup) : (k.of (absorb i d)).Nodup := by
  cases k
  · simp only [Content5.of, absorb]
    split
    · exact h
    · exact dedup_nodup _
  all_goals exact dedup_nodup _

theorem mergeImports_nil (wd : Str) (read : Str → Except Exn Definitions) (n : Nat) (cwd : Str) (d : Definitions)
    (seen : List Str) : mergeImports wd read (n + 1) [] cwd d seen = .ok (d, seen) := by
  rw [mergeImports, mergeLoop]

theorem mergeImports_cons (wd : Str) (read : Str → Except Exn Definitions) (n : Nat) (i : Str) (is : List Str) (cwd : Str)
    (d : Definitions) (seen : List Str) {p dir loc : Str} (hr : resolveLocation wd i cwd = .ok (p, dir, loc)) :
    mergeImports wd read (n + 1) (i :: is) cwd d seen =
      if p ∈ seen then mergeImports wd read (n + 1) is dir d seen
      else (read p).bind fun imported =>
        (if imported.imports ≠ [] then mergeImports wd read n imported.imports dir imported (p :: seen)
          else .ok (imported, p :: seen)).bind fun m => mergeImports wd read (n + 1) is dir (absorb m.1 d) m.2 := by
  rw [mergeImports, mergeLoop, hr]
  rfl

theorem mergeImports_zero (wd : Str) (read : Str → Except Exn Definitions) (is : List Str) (cwd : Str)
    (d : Definitions) (seen : List Str) : mergeImports wd read 0 is cwd d seen = .error .recursionError := by
  rw [mergeImports]

/-- What a successful run did. -/
structure Merged (read : Str → Except Exn Definitions) (d d' : Definitions) (seen seen' : List Str) : Prop where
  nodup : seen.Nodup → seen'.Nodup
  more : ∀ p ∈ seen, p ∈ seen'
  items : ∀ k : Content5, ∀ x, x ∈ k.of d' ↔ x ∈ k.of d ∨ ∃ p ∈ seen', p ∉ seen ∧ ∃ doc, read p = .ok doc ∧ x ∈ k.of doc
  once : ∀ k : Content5, (k.of d).Nodup → (k.of d').Nodup

theorem Merged.refl (read : Str → Except Exn Definitions) (d : Definitions) (seen : List Str) : Merged read d d seen seen :=
  ⟨id, fun _ h => h, fun _ _ => ⟨.inl, fun h => h.elim id fun ⟨_, h1, h2, _⟩ => absurd h1 h2⟩, fun _ h => h⟩

theorem Merged.absorbed {read : Str → Except Exn Definitions} {d d' i i' : Definitions} {p : Str} {seen s1 s2 : List Str}
    (hp : p ∉ seen) (hr : read p = .ok i) (h1 : Merged read i i' (p :: seen) s1) (h2 : Merged read (absorb i' d) d' s1 s2) :
    Merged read d d' seen s2 := by
  refine ⟨fun h => h2.nodup (h1.nodup (List.nodup_cons.2 ⟨hp, h⟩)), fun q hq => h2.more q (h1.more q (List.mem_cons_of_mem _ hq)), ?_, ?_⟩
  · intro k x
    rw [h2.items, absorb_mem, h1.items]
    constructor
    · rintro (((h | ⟨q, hq, hn, doc, hd, hx⟩) | h) | ⟨q, hq, hn, doc, hd, hx⟩)
      · exact .inr ⟨p, h2.more p (h1.more p (by simp)), hp, i, hr, h⟩
      · exact .inr ⟨q, h2.more q hq, fun h => hn (List.mem_cons_of_mem _ h), doc, hd, hx⟩
      · exact .inl h
      · exact .inr ⟨q, hq, fun h => hn (h1.more q (List.mem_cons_of_mem _ h)), doc, hd, hx⟩
    · rintro (h | ⟨q, hq, hn, doc, hd, hx⟩)
      · exact .inl (.inr h)
      · by_cases hqs : q ∈ s1
        · by_cases hqp : q = p
          · subst hqp
            rw [hr] at hd
            injection hd with hd
            subst hd
            exact .inl (.inl (.inl hx))
          · exact .inl (.inl (.inr ⟨q, hqs, by simp [hqp, hn], doc, hd, hx⟩))
        · exact .inr ⟨q, hq, hqs, doc, hd, hx⟩
  · intro k h
    exact h2.once k (absorb_nodup i' d k h)

theorem merge_merged {wd : Str} {read : Str → Except Exn Definitions} {n : Nat} {is : List Str} {cwd : Str} {d d' : Definitions}
    {seen seen' : List Str} (h : mergeImports wd read n is cwd d seen = .ok (d', seen')) : Merged read d d' seen seen' := by
  induction n generalizing is cwd d seen d' seen' with
  | zero => rw [mergeImports_zero] at h; cases h
  | succ n ih =>
    induction is generalizing cwd d seen with
    | nil =>
      rw [mergeImports_nil] at h
      injection h with h
      injection h with h1 h2
      subst h1 h2
      exact Merged.refl _ _ _
    | cons i is ihi =>
      cases hr : resolveLocation wd i cwd with
      | error e => rw [mergeImports, mergeLoop, hr] at h; cases h
      | ok r =>
        obtain ⟨p, dir, loc⟩ := r
        rw [mergeImports_cons _ _ _ _ _ _ _ _ hr] at h
        split at h
        · exact ihi h
        · rename_i hp
          cases hd : read p with
          | error e => rw [hd] at h; cases h
          | ok imp =>
            rw [hd] at h
            simp only [Except.bind] at h
            split at h
            · cases h
            · rename_i m hm
              refine Merged.absorbed hp hd ?_ (ihi h)
              split at hm
              · exact ih hm
              · injection hm with hm
                subst hm
                exact Merged.refl _ _ _

/-! ### Documents of one directory -/

theorem dirName_file {cwd name : Str} (hc : cwd ≠ []) (hl : cwd.getLast? ≠ some '/') (hn : '/' ∉ name) :
    dirName (cwd ++ '/' :: name) = cwd := by
  obtain ⟨pre, base, hu, hp, hb⟩ := upToSlash_eq (p := cwd ++ '/' :: name) (by simp)
  have hs := congrArg (splitOn '/') hp
  rw [splitOn_append, splitOn_append, splitOn_plain hn, splitOn_plain hb] at hs
  have h1 := (List.append_inj_left' hs rfl)
  have h2 : cwd = pre := by rw [← splitOn_join (sep := '/') cwd, h1, splitOn_join]
  subst h2
  unfold dirName
  simp only [hu]
  obtain ⟨ys, y, rfl⟩ : ∃ ys y, cwd = ys ++ [y] := ⟨_, _, (List.dropLast_concat_getLast hc).symm⟩
  have hy : y ≠ '/' := by simpa using hl
  rw [if_pos]
  · unfold rstripSlash
    simp [hy]
  · simp [hy]

theorem not_url_of_colon {s : Str} (h : ':' ∉ s) : ¬ IsUrl s := by
  rintro ⟨a, b, rfl⟩
  exact h (by simp)

theorem resolve_file {wd cwd i : Str} (hc : Directory cwd) (hi : FileName i) :
    ∃ loc, resolveLocation wd i cwd = .ok (cwd ++ '/' :: i, cwd, loc) := by
  have hne : cwd ≠ [] := by rintro rfl; cases hc.1
  obtain ⟨p, hp, hr⟩ := resolve_local (wd := wd) hc.1 (not_url_of_colon hi.2.2)
  have hj : pathJoin cwd i = cwd ++ '/' :: i :=
    pathJoin_plain ⟨hne, hc.2⟩ fun h => hi.2.1 (List.mem_of_head? h)
  rw [hj] at hp
  subst hp
  rw [dirName_file hne hc.2 hi.2.1] at hr
  exact ⟨_, hr⟩

theorem merge_flat {wd : Str} {read : Str → Except Exn Definitions} {n : Nat} {is : List Str} {cwd : Str} {d d' : Definitions}
    {seen seen' : List Str} {files : Str → Option Definitions} (hc : Directory cwd) (hf : InDirectory cwd files read)
    (hn : ∀ name d, files name = some d → ∀ j ∈ d.imports, FileName j ∧ (files j).isSome)
    (hi : ∀ i ∈ is, FileName i ∧ (files i).isSome)
    (h : mergeImports wd read n is cwd d seen = .ok (d', seen')) :
    (∀ i ∈ is, cwd ++ '/' :: i ∈ seen') ∧
    ∀ p ∈ seen', p ∉ seen → ∃ name doc, p = cwd ++ '/' :: name ∧ files name = some doc ∧ Reached files is name ∧
      ∀ j ∈ doc.imports, cwd ++ '/' :: j ∈ seen' := by
  induction n generalizing is d seen d' seen' with
  | zero => rw [mergeImports_zero] at h; cases h
  | succ n ih =>
    induction is generalizing d seen with
    | nil =>
      rw [mergeImports_nil] at h
      injection h with h
      injection h with h1 h2
      subst h1 h2
      exact ⟨by simp, fun p h1 h2 => absurd h1 h2⟩
    | cons i is ihi =>
      have wider : ∀ {name}, Reached files is name → Reached files (i :: is) name := by
        intro name hr
        induction hr with
        | direct h => exact .direct (List.mem_cons_of_mem _ h)
        | step _ hd hn ih => exact .step ih hd hn
      obtain ⟨loc, hr⟩ := resolve_file (wd := wd) hc (hi i (by simp)).1
      rw [mergeImports_cons _ _ _ _ _ _ _ _ hr] at h
      split at h
      · rename_i hp
        obtain ⟨h1, h2⟩ := ihi (fun j hj => hi j (by simp [hj])) h
        have hm := (merge_merged h).more
        refine ⟨?_, ?_⟩
        · intro j hj
          rcases List.mem_cons.1 hj with rfl | hj
          · exact hm _ hp
          · exact h1 j hj
        · intro p hp1 hp2
          obtain ⟨name, doc, e, hd, hre, hj⟩ := h2 p hp1 hp2
          exact ⟨name, doc, e, hd, wider hre, hj⟩
      · rename_i hp
        obtain ⟨doc, hdoc⟩ := Option.isSome_iff_exists.1 (hi i (by simp)).2
        rw [hf i doc hdoc] at h
        simp only [Except.bind] at h
        split at h
        · cases h
        · rename_i m hm
          obtain ⟨h1, h2⟩ := ihi (fun j hj => hi j (by simp [hj])) h
          have hmore := (merge_merged h).more
          have nested : (cwd ++ '/' :: i ∈ m.2) ∧ (∀ j ∈ doc.imports, cwd ++ '/' :: j ∈ m.2) ∧
              ∀ p ∈ m.2, p ∉ (cwd ++ '/' :: i) :: seen → ∃ name doc', p = cwd ++ '/' :: name ∧ files name = some doc' ∧
                Reached files doc.imports name ∧ ∀ j ∈ doc'.imports, cwd ++ '/' :: j ∈ m.2 := by
            split at hm
            · have := ih (hn i doc hdoc) hm
              exact ⟨(merge_merged hm).more _ (by simp), this.1, this.2⟩
            · rename_i hx
              injection hm with hm
              subst hm
              refine ⟨by simp, ?_, fun p h1 h2 => absurd h1 h2⟩
              intro j hj
              exact absurd (List.ne_nil_of_mem hj) (by simpa using hx)
          refine ⟨?_, ?_⟩
          · intro j hj
            rcases List.mem_cons.1 hj with rfl | hj
            · exact hmore _ nested.1
            · exact h1 j hj
          · intro p hp1 hp2
            by_cases hpm : p ∈ m.2
            · by_cases hpi : p = cwd ++ '/' :: i
              · exact ⟨i, doc, hpi, hdoc, .direct (by simp), fun j hj => hmore _ (nested.2.1 j hj)⟩
              · obtain ⟨name, doc', e, hd', hre, hj⟩ := nested.2.2 p hpm (by simp [hpi, hp2])
                refine ⟨name, doc', e, hd', ?_, fun j hj' => hmore _ (hj j hj')⟩
                clear hj hd' e
                induction hre with
                | direct h => exact .step (.direct (by simp)) hdoc h
                | step _ hd hn ih => exact .step ih hd hn
            · obtain ⟨name, doc', e, hd', hre, hj⟩ := h2 p hp1 hpm
              exact ⟨name, doc', e, hd', wider hre, hj⟩

theorem filter_mono {α : Type} {U : List α} {q q' : α → Bool} (hsub : ∀ x, q' x = true → q x = true) :
    (U.filter q').length ≤ (U.filter q).length := by
  induction U with
  | nil => simp
  | cons y ys ih =>
    rw [List.filter_cons, List.filter_cons]
    by_cases hy : q' y = true
    · simp [hy, hsub y hy, ih]
    · by_cases hy' : q y = true
      · simp [hy, hy']; omega
      · simp [hy, hy', ih]

theorem filter_drop {α : Type} {U : List α} {q q' : α → Bool} {a : α} (ha : a ∈ U) (h1 : q a = true) (h2 : q' a = false)
    (hsub : ∀ x, q' x = true → q x = true) : (U.filter q').length < (U.filter q).length := by
  induction U with
  | nil => simp at ha
  | cons x xs ih =>
    have hle := filter_mono (U := xs) hsub
    rw [List.filter_cons, List.filter_cons]
    rcases List.mem_cons.1 ha with rfl | ha
    · simp [h1, h2]; omega
    · have := ih ha
      by_cases hy : q' x = true
      · simp [hy, hsub x hy, this]
      · by_cases hy' : q x = true
        · simp [hy, hy']; omega
        · simp [hy, hy', this]

theorem merge_ends {wd : Str} {read : Str → Except Exn Definitions} {n : Nat} {is : List Str} {cwd : Str} {d : Definitions}
    {seen : List Str} {files : Str → Option Definitions} {U : List Str} (hc : Directory cwd) (hf : InDirectory cwd files read)
    (hn : ∀ name d, files name = some d → ∀ j ∈ d.imports, FileName j ∧ (files j).isSome)
    (hU : ∀ name, (files name).isSome → name ∈ U)
    (hi : ∀ i ∈ is, FileName i ∧ (files i).isSome)
    (hm : (U.filter fun name => decide (cwd ++ '/' :: name ∉ seen)).length < n) :
    ∃ r, mergeImports wd read n is cwd d seen = .ok r := by
  induction n generalizing is d seen with
  | zero => omega
  | succ n ih =>
    induction is generalizing d seen with
    | nil => exact ⟨_, mergeImports_nil _ _ _ _ _ _⟩
    | cons i is ihi =>
      obtain ⟨loc, hr⟩ := resolve_file (wd := wd) hc (hi i (by simp)).1
      rw [mergeImports_cons _ _ _ _ _ _ _ _ hr]
      split
      · exact ihi (fun j hj => hi j (by simp [hj])) hm
      · rename_i hp
        obtain ⟨doc, hdoc⟩ := Option.isSome_iff_exists.1 (hi i (by simp)).2
        rw [hf i doc hdoc]
        have hlt : (U.filter fun name => decide (cwd ++ '/' :: name ∉ (cwd ++ '/' :: i) :: seen)).length < n := by
          refine Nat.lt_of_lt_of_le (filter_drop (a := i) (hU i (hi i (by simp)).2) (q := fun name => decide (cwd ++ '/' :: name ∉ seen))
            (by simpa using hp) (by simp) ?_) (Nat.le_of_lt_succ hm)
          intro x hx
          simp only [decide_eq_true_eq, List.mem_cons, not_or] at hx ⊢
          exact hx.2
        have hrec : ∃ m, (if doc.imports ≠ [] then mergeImports wd read n doc.imports cwd doc ((cwd ++ '/' :: i) :: seen)
            else .ok (doc, (cwd ++ '/' :: i) :: seen)) = .ok m ∧ ∀ p ∈ seen, p ∈ m.2 := by
          split
          · obtain ⟨m, hm⟩ := ih (d := doc) (hn i doc hdoc) hlt
            exact ⟨m, hm, fun p hp => (merge_merged (d' := m.1) (seen' := m.2) hm).more p (by simp [hp])⟩
          · exact ⟨_, rfl, fun p hp => by simp [hp]⟩
        obtain ⟨m, hme, hms⟩ := hrec
        simp only [Except.bind, hme]
        refine ihi (fun j hj => hi j (by simp [hj])) (Nat.lt_of_le_of_lt ?_ hm)
        apply filter_mono
        intro x hx
        simp only [decide_eq_true_eq] at hx ⊢
        exact fun h => hx (hms _ h)

theorem path_inj {cwd a b : Str} (h : cwd ++ '/' :: a = cwd ++ '/' :: b) : a = b := by
  have := List.append_cancel_left h
  injection this

/-- C75: documents that import each other by their file names, all in one directory, possibly in circles: merging ends,
given room for as many nested calls as there are documents (and one more). Of every kind the result has what the root
document and the documents reached from it have, nothing else, and nothing twice if the root document had nothing twice.
The paths noted are those of the documents reached, each once. -/
theorem C75_merged (wd cwd : Str) (read : Str → Except Exn Definitions) (files : Str → Option Definitions) (U : List Str)
    (root : Definitions) (n : Nat) (hc : Directory cwd) (hf : InDirectory cwd files read)
    (hU : ∀ name, (files name).isSome → name ∈ U)
    (hr : ∀ i ∈ root.imports, FileName i ∧ (files i).isSome)
    (hn : ∀ name d, files name = some d → ∀ j ∈ d.imports, FileName j ∧ (files j).isSome) (hlt : U.length < n) :
    ∃ d seen, mergeImports wd read n root.imports cwd root [] = .ok (d, seen) ∧
      (∀ k : Content5, ∀ x, x ∈ k.of d ↔ x ∈ k.of root ∨
        ∃ name doc, Reached files root.imports name ∧ files name = some doc ∧ x ∈ k.of doc) ∧
      (∀ k : Content5, (k.of root).Nodup → (k.of d).Nodup) ∧
      seen.Nodup ∧ ∀ p, p ∈ seen ↔ ∃ name, Reached files root.imports name ∧ p = cwd ++ '/' :: name := by
  obtain ⟨⟨d, seen⟩, h⟩ := merge_ends (d := root) (seen := []) (wd := wd) hc hf hn hU hr
    (Nat.lt_of_le_of_lt (List.length_filter_le _ _) hlt)
  have hm := merge_merged h
  obtain ⟨h1, h2⟩ := merge_flat hc hf hn hr h
  have all : ∀ name, Reached files root.imports name → cwd ++ '/' :: name ∈ seen := by
    intro name hre
    induction hre with
    | direct h => exact h1 _ h
    | step _ hd hj ih =>
      obtain ⟨name', doc', e, hd', _, hj'⟩ := h2 _ ih (by simp)
      have := path_inj e
      subst this
      rw [hd] at hd'
      injection hd' with hd'
      subst hd'
      exact hj' _ hj
  refine ⟨d, seen, h, ?_, hm.once, hm.nodup List.nodup_nil, ?_⟩
  · intro k x
    rw [hm.items]
    constructor
    · rintro (h | ⟨p, hp, _, doc, hd, hx⟩)
      · exact .inl h
      · obtain ⟨name, doc', e, hd', hre, _⟩ := h2 p hp (by simp)
        subst e
        rw [hf name doc' hd'] at hd
        injection hd with hd
        subst hd
        exact .inr ⟨name, doc', hre, hd', hx⟩
    · rintro (h | ⟨name, doc, hre, hd, hx⟩)
      · exact .inl h
      · exact .inr ⟨_, all name hre, by simp, doc, hf name doc hd, hx⟩
  · intro p
    constructor
    · intro hp
      obtain ⟨name, _, e, _, hre, _⟩ := h2 p hp (by simp)
      exact ⟨name, hre, e⟩
    · rintro ⟨name, hre, rfl⟩
      exact all name hre

/-- C75: whatever the directories, what a successful run gives comes from the root document and documents it opened. -/
theorem C75_sound (wd cwd : Str) (read : Str → Except Exn Definitions) (root d : Definitions) (seen : List Str) (n : Nat)
    (h : mergeImports wd read n root.imports cwd root [] = .ok (d, seen)) : seen.Nodup ∧ ∀ k : Content5,
      ∀ x, x ∈ k.of d ↔ x ∈ k.of root ∨ ∃ p ∈ seen, ∃ doc, read p = .ok doc ∧ x ∈ k.of doc := by
  have hm := merge_merged h
  refine ⟨hm.nodup List.nodup_nil, fun k x => ?_⟩
  rw [hm.items]
  simp

/-! ### C76: directories -/

theorem getLast_append_cons {a b : Str} {c : Char} (hb : b ≠ []) (h : '/' ∉ b) : (a ++ c :: b).getLast? ≠ some '/' := by
  intro e
  rw [List.getLast?_append, List.getLast?_cons] at e
  cases hl : b.getLast? with
  | none => rw [List.getLast?_eq_none_iff] at hl; exact hb hl
  | some x =>
    rw [hl] at e
    simp at e
    exact h (e ▸ List.mem_of_getLast? hl)

theorem directory_sub {cwd s : Str} (hc : Directory cwd) (hs : s ≠ [] ∧ '/' ∉ s) : Directory (cwd ++ '/' :: s) := by
  refine ⟨?_, getLast_append_cons hs.1 hs.2⟩
  have := hc.1
  unfold Absolute at this ⊢
  cases cwd with
  | nil => cases this
  | cons c cs => exact this

/-- A location naming a file in a directory below or above. -/
theorem resolve_sub {wd cwd s a : Str} (hc : Directory cwd) (hs : s ≠ [] ∧ '/' ∉ s ∧ ':' ∉ s) (ha : FileName a) :
    ∃ loc, resolveLocation wd (s ++ '/' :: a) cwd = .ok (cwd ++ '/' :: s ++ '/' :: a, cwd ++ '/' :: s, loc) := by
  have hne : cwd ≠ [] := by rintro rfl; cases hc.1
  have hcol : ':' ∉ s ++ '/' :: a := by
    simp only [List.mem_append, List.mem_cons, not_or]
    exact ⟨hs.2.2, by decide, ha.2.2⟩
  obtain ⟨p, hp, hr⟩ := resolve_local (wd := wd) hc.1 (not_url_of_colon hcol)
  have hj : pathJoin cwd (s ++ '/' :: a) = cwd ++ '/' :: s ++ '/' :: a := by
    rw [pathJoin_plain ⟨hne, hc.2⟩]
    · simp
    · cases s with
      | nil => exact absurd rfl hs.1
      | cons c cs =>
        simp only [List.cons_append, List.head?_cons, ne_eq, Option.some.injEq]
        rintro rfl
        exact hs.2.1 (by simp)
  rw [hj] at hp
  subst hp
  rw [dirName_file (by simp) (getLast_append_cons hs.1 hs.2.1) ha.2.1] at hr
  exact ⟨_, hr⟩

/-- C76: imports are not all resolved against the directory of the importing document: after an import of a document of
another directory `s`, the next import `b` is looked for there too. If there is no such file, merging fails, whether or
not `b` lies beside the importing document. -/
theorem C76_sibling (wd cwd s a b : Str) (read : Str → Except Exn Definitions) (root doc : Definitions) (e : Exn) (n : Nat)
    (hc : Directory cwd) (hs : s ≠ [] ∧ '/' ∉ s ∧ ':' ∉ s) (ha : FileName a) (hb : FileName b) (hab : a ≠ b)
    (hd : read (cwd ++ '/' :: s ++ '/' :: a) = .ok doc) (hdi : doc.imports = [])
    (he : read (cwd ++ '/' :: s ++ '/' :: b) = .error e) :
    mergeImports wd read (n + 1) [s ++ '/' :: a, b] cwd root [] = .error e := by
  obtain ⟨l1, h1⟩ := resolve_sub (wd := wd) hc hs ha
  obtain ⟨l2, h2⟩ := resolve_file (wd := wd) (directory_sub hc ⟨hs.1, hs.2.1⟩) hb
  rw [mergeImports_cons _ _ _ _ _ _ _ _ h1, if_neg (by simp), hd]
  simp only [Except.bind, hdi]
  rw [if_neg (by simp)]
  simp only
  rw [mergeImports_cons _ _ _ _ _ _ _ _ h2, if_neg, he]
  · rfl
  · simp only [List.mem_singleton]
    intro h
    exact hab (path_inj h).symm

/-- C76: two documents in different directories that import each other — `a` in the directory `cwd` and `b` in its
subdirectory `s` — are merged without end: every bound on the depth of the recursion is exceeded. Which document is opened
depends on what the path stands for, not on how it is written. -/
theorem C76_cycle (wd cwd s a b : Str) (read : Str → Except Exn Definitions) (docA docB : Definitions) (f : List Str) (n : Nat)
    (hc : Directory cwd) (hf : StandsFor [] cwd f) (hs : FileName s ∧ s ≠ py"." ∧ s ≠ py"..") (ha : FileName a ∧ a ≠ py"." ∧ a ≠ py"..")
    (hb : FileName b ∧ b ≠ py"." ∧ b ≠ py"..")
    (hra : ∀ p, StandsFor [] p (f ++ [a]) → read p = .ok docA) (hrb : ∀ p, StandsFor [] p (f ++ [s, b]) → read p = .ok docB)
    (hia : docA.imports = [s ++ '/' :: b]) (hib : docB.imports = [py"../" ++ a]) :
    mergeImports wd read n docA.imports cwd docA [] = .error .recursionError := by
  have hf' : rooted cwd = f := (rooted_of_stands hc.1 hf).symm
  have down : ∀ x : Str, FileName x ∧ x ≠ py"." ∧ x ≠ py".." → ∀ p, rooted (p ++ '/' :: x) = rooted p ++ [x] := by
    intro x hx p
    rw [rooted_append, splitOn_plain hx.1.2.1]
    simp only [List.foldl_cons, List.foldl_nil]
    unfold goTo
    rw [if_neg, if_neg hx.2.2]
    rintro (h | h)
    · exact hx.1.1 h
    · exact hx.2.1 h
  have up : ∀ p, rooted (p ++ '/' :: py"..") = (rooted p).dropLast := by
    intro p
    rw [rooted_append]
    rfl
  have key : ∀ n cwd' d seen, Directory cwd' → rooted cwd' = f →
      (∀ p ∈ seen, (rooted p = f ++ [s, b] → p.length < cwd'.length + s.length + b.length + 2) ∧
        (rooted p = f ++ [a] → p.length < cwd'.length + s.length + a.length + 5)) →
      mergeImports wd read n docA.imports cwd' d seen = .error .recursionError := by
    intro n
    induction n using Nat.strongRecOn with
    | _ n ih =>
      intro cwd' d seen hc' hr hseen
      cases n with
      | zero => exact mergeImports_zero _ _ _ _ _ _
      | succ n =>
        have hs' : s ≠ [] ∧ '/' ∉ s ∧ ':' ∉ s := hs.1
        obtain ⟨l1, h1⟩ := resolve_sub (wd := wd) hc' hs' hb.1
        have hcs := directory_sub hc' ⟨hs'.1, hs'.2.1⟩
        have r1 : rooted (cwd' ++ '/' :: s ++ '/' :: b) = f ++ [s, b] := by rw [down b hb, down s hs, hr]; simp
        rw [hia, mergeImports_cons _ _ _ _ _ _ _ _ h1, if_neg]
        · have hcb := directory_sub hcs ⟨hb.1.1, hb.1.2.1⟩
          rw [hrb _ (r1 ▸ stands_abs hcb.1 [])]
          simp only [Except.bind, hib]
          rw [if_pos (by simp)]
          cases n with
          | zero => rw [mergeImports_zero]
          | succ n =>
            obtain ⟨l2, h2⟩ := resolve_sub (wd := wd) (s := py"..") hcs (by decide) ha.1
            have hcd : Directory (cwd' ++ '/' :: s ++ '/' :: py"..") := directory_sub hcs (by decide)
            have hca := directory_sub hcd ⟨ha.1.1, ha.1.2.1⟩
            have rd : rooted (cwd' ++ '/' :: s ++ '/' :: py"..") = f := by rw [up, down s hs, hr]; simp
            have r2 : rooted (cwd' ++ '/' :: s ++ '/' :: py".." ++ '/' :: a) = f ++ [a] := by rw [down a ha, rd]
            have e2 : py"../" ++ a = py".." ++ '/' :: a := rfl
            rw [e2, mergeImports_cons _ _ _ _ _ _ _ _ h2, if_neg]
            · rw [hra _ (r2 ▸ stands_abs hca.1 [])]
              simp only [Except.bind]
              rw [if_pos (by simp [hia]), ih n (by omega) _ _ _ hcd rd]
              intro p hp
              have len : (cwd' ++ '/' :: s ++ '/' :: py"..").length = cwd'.length + s.length + 4 := by simp; omega
              rw [len]
              rcases List.mem_cons.1 hp with rfl | hp
              · rw [r2]
                refine ⟨fun h => ?_, fun _ => ?_⟩
                · have := congrArg List.length h
                  simp at this
                · simp; omega
              · rcases List.mem_cons.1 hp with rfl | hp
                · rw [r1]
                  refine ⟨fun _ => ?_, fun h => ?_⟩
                  · simp; omega
                  · have := congrArg List.length h
                    simp at this
                · obtain ⟨h1, h2⟩ := hseen p hp
                  exact ⟨fun h => by have := h1 h; omega, fun h => by have := h2 h; omega⟩
            · intro hm
              rcases List.mem_cons.1 hm with h | h
              · have := congrArg (fun p => (rooted p).length) h
                simp only [r1, r2] at this
                simp at this
              · have := (hseen _ h).2 r2
                simp at this
                omega
        · intro hm
          have := (hseen _ hm).1 r1
          simp at this
          omega
  exact key n cwd docA [] hc hf' (by simp)

/-! ### Examples -/

/-- Three documents importing each other in a circle, with shared contents. -/
example : let a : Definitions := { imports := [py"b.wsdl"], schemas := [1], messages := [10] }
    let b : Definitions := { imports := [py"c.wsdl", py"a.wsdl"], schemas := [2], messages := [10, 11] }
    let c : Definitions := { imports := [py"b.wsdl"], schemas := [2, 3], messages := [12] }
    let read : Str → Except Exn Definitions := fun p =>
      if p = py"/w/a.wsdl" then .ok a else if p = py"/w/b.wsdl" then .ok b else if p = py"/w/c.wsdl" then .ok c
      else .error (.user 0)
    mergeImports py"/" read 4 a.imports py"/w" a [] =
      .ok ({ imports := [py"b.wsdl"], schemas := [1, 2, 3], messages := [10, 12, 11] },
        [py"/w/a.wsdl", py"/w/c.wsdl", py"/w/b.wsdl"]) := by
  decide +kernel

end Soapfish
