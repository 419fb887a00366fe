import Verif.Spec.Inline
import Verif.Props.Described
import Verif.Props.Imports
import Verif.Props.Files
/-
C119: the schemas of a WSDL document that import each other.
-/
namespace Soapfish

/-! ### The order -/

section
variable {α : Type} (imp : α → List (Option Str)) (tgt : α → Option Str)

/-- `takeSchemas` for anything with imports and a target. -/
def takeEarly (targets : List (Option Str)) : List α → List α × List α
  | [] => ([], [])
  | s :: l =>
    if (imp s).any (fun i => decide (i ∉ targets)) then
      ((takeEarly targets l).1, s :: (takeEarly targets l).2)
    else
      (s :: (takeEarly (tgt s :: targets) l).1, (takeEarly (tgt s :: targets) l).2)

variable {imp tgt}

theorem takeSchemas_map {f : α → WsdlSchema} (hi : ∀ a, (f a).imports = imp a) (ht : ∀ a, (f a).target = tgt a) (l : List α)
    (targets : List (Option Str)) :
    takeSchemas targets (l.map f) = ((takeEarly imp tgt targets l).1.map f, (takeEarly imp tgt targets l).2.map f) := by
  induction l generalizing targets with
  | nil => rfl
  | cons s l ih =>
    simp only [List.map_cons, takeSchemas, takeEarly, hi, ht]
    split
    · rw [ih]; rfl
    · rw [ih]; rfl

theorem takeEarly_map {β : Type} {imp' : β → List (Option Str)} {tgt' : β → Option Str} {f : α → β} (hi : ∀ a, imp' (f a) = imp a)
    (ht : ∀ a, tgt' (f a) = tgt a) (l : List α) (targets : List (Option Str)) :
    takeEarly imp' tgt' targets (l.map f) = ((takeEarly imp tgt targets l).1.map f, (takeEarly imp tgt targets l).2.map f) := by
  induction l generalizing targets with
  | nil => rfl
  | cons s l ih =>
    simp only [List.map_cons, takeEarly, hi, ht]
    split
    · rw [ih]; rfl
    · rw [ih]; rfl

theorem takeEarly_sub (targets : List (Option Str)) (l : List α) (a : α) (h : a ∈ (takeEarly imp tgt targets l).1 ++ (takeEarly imp tgt targets l).2) :
    a ∈ l := by
  induction l generalizing targets with
  | nil => exact h
  | cons s l ih =>
    unfold takeEarly at h
    split at h
    · simp only [List.mem_append, List.mem_cons] at h
      rcases h with h | rfl | h
      · exact List.mem_cons_of_mem _ (ih targets (List.mem_append_left _ h))
      · exact List.mem_cons_self ..
      · exact List.mem_cons_of_mem _ (ih targets (List.mem_append_right _ h))
    · simp only [List.mem_append, List.mem_cons] at h
      rcases h with (rfl | h) | h
      · exact List.mem_cons_self ..
      · exact List.mem_cons_of_mem _ (ih _ (List.mem_append_left _ h))
      · exact List.mem_cons_of_mem _ (ih _ (List.mem_append_right _ h))

theorem takeEarly_append (targets : List (Option Str)) (l l' : List α) :
    takeEarly imp tgt targets (l ++ l') =
      ((takeEarly imp tgt targets l).1 ++ (takeEarly imp tgt ((takeEarly imp tgt targets l).1.reverse.map tgt ++ targets) l').1,
       (takeEarly imp tgt targets l).2 ++ (takeEarly imp tgt ((takeEarly imp tgt targets l).1.reverse.map tgt ++ targets) l').2) := by
  induction l generalizing targets with
  | nil => rfl
  | cons s l ih =>
    simp only [List.cons_append, takeEarly]
    split
    · rw [ih]; rfl
    · rw [ih]
      simp

theorem first_split {x y : List α} {l1 l2 : List α} {s : α} (h : x ++ y = l1 ++ s :: l2) :
    (∃ t, x = l1 ++ s :: t) ∨ ∃ t, l1 = x ++ t ∧ y = t ++ s :: l2 := by
  rcases List.append_eq_append_iff.1 h with ⟨t, e1, e2⟩ | ⟨t, e1, e2⟩
  · exact .inr ⟨t, e1, e2⟩
  · cases t with
    | nil => exact .inr ⟨[], by simpa using e1.symm, e2.symm⟩
    | cons c t =>
      injection e2 with e2 e3
      subst e2
      exact .inl ⟨t, e1⟩

/-- Where an early one was in the list. -/
theorem takeEarly_first (targets : List (Option Str)) : ∀ {l : List α} {T1 T2 : List α} {s : α},
    (takeEarly imp tgt targets l).1 = T1 ++ s :: T2 → ∃ p q, l = p ++ s :: q ∧ (takeEarly imp tgt targets p).1 = T1 ∧
      ∀ i ∈ imp s, i ∈ T1.map tgt ∨ i ∈ targets := by
  intro l
  induction l generalizing targets with
  | nil => intro T1 T2 s h; cases T1 <;> cases h
  | cons a l ih =>
    intro T1 T2 s h
    unfold takeEarly at h
    split at h
    · rename_i hc
      obtain ⟨p, q, rfl, h1, h2⟩ := ih targets h
      exact ⟨a :: p, q, rfl, by simp only [takeEarly, if_pos hc]; exact h1, h2⟩
    · rename_i hc
      cases T1 with
      | nil =>
        injection h with h _
        subst h
        refine ⟨[], l, rfl, rfl, fun i hi => .inr ?_⟩
        simp only [List.any_eq_true, decide_eq_true_eq, not_exists, not_and, Classical.not_not] at hc
        exact hc i hi
      | cons b T1 =>
        injection h with h h'
        subst h
        obtain ⟨p, q, rfl, h1, h2⟩ := ih _ h'
        refine ⟨a :: p, q, rfl, by simp only [takeEarly, if_neg hc]; rw [h1], fun i hi => ?_⟩
        rcases h2 i hi with h | h
        · exact .inl (by simp [h])
        · rcases List.mem_cons.1 h with rfl | h
          · exact .inl (by simp)
          · exact .inr h

/-- Where another one was. -/
theorem takeEarly_second (targets : List (Option Str)) : ∀ {l : List α} {R1 R2 : List α} {s : α},
    (takeEarly imp tgt targets l).2 = R1 ++ s :: R2 → ∃ p q, l = p ++ s :: q ∧ (takeEarly imp tgt targets p).2 = R1 ∧
      ∃ i ∈ imp s, i ∉ (takeEarly imp tgt targets p).1.map tgt ∧ i ∉ targets := by
  intro l
  induction l generalizing targets with
  | nil => intro T1 T2 s h; cases T1 <;> cases h
  | cons a l ih =>
    intro R1 R2 s h
    unfold takeEarly at h
    split at h
    · rename_i hc
      cases R1 with
      | nil =>
        injection h with h _
        subst h
        rw [List.any_eq_true] at hc
        obtain ⟨i, hi, hn⟩ := hc
        exact ⟨[], l, rfl, rfl, i, hi, by simp [takeEarly], by simpa using hn⟩
      | cons b R1 =>
        injection h with h h'
        subst h
        obtain ⟨p, q, rfl, h1, i, h2, h3⟩ := ih targets h'
        refine ⟨a :: p, q, rfl, by simp only [takeEarly, if_pos hc]; rw [h1], i, h2, ?_⟩
        simp only [takeEarly, if_pos hc]
        exact h3
    · rename_i hc
      obtain ⟨p, q, rfl, h1, i, h2, h3, h4⟩ := ih _ h
      refine ⟨a :: p, q, rfl, by simp only [takeEarly, if_neg hc]; exact h1, i, h2, ?_⟩
      simp only [takeEarly, if_neg hc]
      rw [List.mem_cons, not_or] at h4
      exact ⟨by simp only [List.map_cons, List.mem_cons, not_or]; exact ⟨h4.1, h3⟩, h4.2⟩

end

/-! ### The schemas of a document -/

/-- The namespaces a schema imports, and its own. -/
def valImports (s : Val) : List (Option Str) := (readSchema s).imports
def valTarget (s : Val) : Option Str := (readSchema s).targetNamespace

abbrev takeVals (l : List Val) : List Val × List Val := takeEarly valImports valTarget [] l

theorem valTarget_iff {s : Val} {n : Str} : valTarget s = some n ↔ HasText s py"targetNamespace" n :=
  ⟨readStr_some, readStr_of⟩

theorem itemsOf_unique {v : Val} {n : Str} {l l' : List Val} (h : ItemsOf v n l) (h' : ItemsOf v n l') : l = l' := by
  rcases h with h | ⟨rfl, h⟩ <;> rcases h' with h' | ⟨rfl, h'⟩
  · obtain ⟨_, h⟩ := h
    obtain ⟨_, h'⟩ := h'
    rw [h] at h'
    injection h' with h'
    injection h'
  · exact absurd h (h' _)
  · exact absurd h' (h _)
  · rfl

theorem valImports_iff {s : Val} {n : Str} : some n ∈ valImports s ↔ ImportsNs s n := by
  constructor
  · intro h
    obtain ⟨i, hi, h⟩ := List.mem_map.1 h
    exact ⟨_, i, readList_items _ _, hi, readStr_some h⟩
  · rintro ⟨items, i, h1, h2, h3⟩
    rw [itemsOf_unique h1 (readList_items _ _)] at h2
    exact List.mem_map.2 ⟨i, h2, readStr_of h3⟩

/-- All imports have namespaces. -/
def NamedImports (l : List Val) : Prop := ∀ s ∈ l, none ∉ valImports s

theorem earlyAt_iff {before : List Val} {s : Val} : EarlyAt before s ↔
    ∀ n, ImportsNs s n → ∃ p t q, before = p ++ t :: q ∧ EarlyAt p t ∧ HasText t py"targetNamespace" n := by
  constructor
  · rintro ⟨p, t, q, h1, h2, h3⟩ n hn
    exact ⟨p n, t n, q n, h1 n hn, h3 n hn, h2 n hn⟩
  · intro h
    have : ∀ n, ∃ x : List Val × Val × List Val, ImportsNs s n → before = x.1 ++ x.2.1 :: x.2.2 ∧ EarlyAt x.1 x.2.1 ∧
        HasText x.2.1 py"targetNamespace" n := by
      intro n
      by_cases hn : ImportsNs s n
      · obtain ⟨p, t, q, h⟩ := h n hn
        exact ⟨(p, t, q), fun _ => h⟩
      · exact ⟨([], s, []), fun h => absurd h hn⟩
    obtain ⟨f, hf⟩ := Classical.axiomOfChoice this
    exact .intro (fun n => (f n).1) (fun n => (f n).2.1) (fun n => (f n).2.2) (fun n hn => (hf n hn).1) (fun n hn => (hf n hn).2.2)
      fun n hn => (hf n hn).2.1

theorem early_iff : ∀ (k : Nat) {l : List Val}, l.length ≤ k → NamedImports l → ∀ {p : List Val} {s : Val} {q : List Val}, l = p ++ s :: q →
    ((∀ i ∈ valImports s, i ∈ (takeVals p).1.map valTarget) ↔ EarlyAt p s) := by
  intro k
  induction k with
  | zero => intro l hl _ p s q e; subst e; simp at hl
  | succ k ih =>
    intro l hl hn p s q e
    have hp : p.length ≤ k := by subst e; simp at hl; omega
    have hnp : NamedImports p := fun s hs => hn s (by subst e; simp [hs])
    constructor
    · intro h
      refine earlyAt_iff.2 fun n hi => ?_
      obtain ⟨t, ht, htn⟩ := List.mem_map.1 (h _ (valImports_iff.2 hi))
      obtain ⟨T1, T2, eT⟩ := List.append_of_mem ht
      obtain ⟨p1, q1, rfl, h1, h2⟩ := takeEarly_first [] eT
      refine ⟨p1, t, q1, rfl, (ih hp hnp rfl).1 fun i hi => ?_, valTarget_iff.1 htn⟩
      rw [h1]
      rcases h2 i hi with h | h
      · exact h
      · cases h
    · intro h i hi
      cases i with
      | none => exact absurd hi (hn s (by subst e; simp))
      | some n =>
        obtain ⟨p1, t, q1, rfl, h1, h2⟩ := earlyAt_iff.1 h n (valImports_iff.1 hi)
        have := (ih hp hnp rfl).2 h1
        refine List.mem_map.2 ⟨t, ?_, valTarget_iff.2 h2⟩
        have hc : ¬ (valImports t).any (fun i => decide (i ∉ ((takeVals p1).1.reverse.map valTarget ++ []))) = true := by
          simp only [List.any_eq_true, decide_eq_true_eq, not_exists, not_and, Classical.not_not]
          intro i hi
          have := this i hi
          simpa using this
        rw [takeVals, takeEarly_append]
        refine List.mem_append_right _ ?_
        rw [takeEarly, if_neg hc]
        exact List.mem_cons_self ..

theorem early_mem {l : List Val} (hn : NamedImports l) {t : Val} : t ∈ (takeVals l).1 ↔ ∃ p q, l = p ++ t :: q ∧ EarlyAt p t := by
  constructor
  · intro ht
    obtain ⟨T1, T2, eT⟩ := List.append_of_mem ht
    obtain ⟨p1, q1, rfl, h1, h2⟩ := takeEarly_first [] eT
    refine ⟨p1, q1, rfl, (early_iff _ (Nat.le_refl _) hn rfl).1 fun i hi => ?_⟩
    rw [h1]
    rcases h2 i hi with h | h
    · exact h
    · cases h
  · rintro ⟨p, q, rfl, h⟩
    have := (early_iff _ (Nat.le_refl _) hn rfl).2 h
    have hc : ¬ (valImports t).any (fun i => decide (i ∉ ((takeVals p).1.reverse.map valTarget ++ []))) = true := by
      simp only [List.any_eq_true, decide_eq_true_eq, not_exists, not_and, Classical.not_not]
      intro i hi
      have := this i hi
      simpa using this
    rw [takeVals, takeEarly_append]
    refine List.mem_append_right _ ?_
    rw [takeEarly, if_neg hc]
    exact List.mem_cons_self ..

theorem late_mem {l : List Val} (hn : NamedImports l) {t : Val} : t ∈ (takeVals l).2 ↔ ∃ p q, l = p ++ t :: q ∧ ¬ EarlyAt p t := by
  constructor
  · intro ht
    obtain ⟨T1, T2, eT⟩ := List.append_of_mem ht
    obtain ⟨p1, q1, rfl, h1, i, hi, h2, _⟩ := takeEarly_second [] eT
    exact ⟨p1, q1, rfl, fun he => h2 ((early_iff _ (Nat.le_refl _) hn rfl).2 he i hi)⟩
  · rintro ⟨p, q, rfl, h⟩
    have hc : (valImports t).any (fun i => decide (i ∉ ((takeVals p).1.reverse.map valTarget ++ []))) = true := by
      by_cases hc : (valImports t).any (fun i => decide (i ∉ ((takeVals p).1.reverse.map valTarget ++ []))) = true
      · exact hc
      · exfalso
        apply h
        apply (early_iff _ (Nat.le_refl _) hn rfl).1
        simp only [List.any_eq_true, decide_eq_true_eq, not_exists, not_and, Classical.not_not] at hc
        intro i hi
        simpa using hc i hi
    rw [takeVals, takeEarly_append]
    refine List.mem_append_right _ ?_
    rw [takeEarly, if_pos hc]
    exact List.mem_cons_self ..

/-- What comes before an early schema in the final order. -/
theorem first_early {p : List Val} {s : Val} {q : List Val} (hn : NamedImports (p ++ s :: q)) (he : EarlyAt p s) (t : Val) :
    t ∈ (takeVals p).1 ↔ ComesFirst p s q t := by
  have hnp : NamedImports p := fun s hs => hn s (by simp [hs])
  constructor
  · intro ht
    obtain ⟨p1, q1, e, het⟩ := (early_mem hnp).1 ht
    exact .early p1 q1 e het
  · rintro (⟨p1, q1, e, het⟩ | ⟨_, _, hne, _⟩ | ⟨_, _, hne, _⟩)
    · exact (early_mem hnp).2 ⟨p1, q1, e, het⟩
    · exact absurd he hne
    · exact absurd he hne

theorem first_late {p : List Val} {s : Val} {q : List Val} (hn : NamedImports (p ++ s :: q)) (he : ¬ EarlyAt p s) (t : Val) :
    t ∈ (takeVals (p ++ s :: q)).1 ++ (takeVals p).2 ↔ ComesFirst p s q t := by
  have hnp : NamedImports p := fun s hs => hn s (by simp [hs])
  constructor
  · intro ht
    rcases List.mem_append.1 ht with ht | ht
    · obtain ⟨p1, q1, e, het⟩ := (early_mem hn).1 ht
      exact .moved p1 q1 he e het
    · obtain ⟨p1, q1, e, het⟩ := (late_mem hnp).1 ht
      exact .late p1 q1 he e het
  · rintro (⟨p1, q1, e, het⟩ | ⟨p1, q1, _, e, het⟩ | ⟨p1, q1, _, e, het⟩)
    · exact List.mem_append_left _ ((early_mem hn).2 ⟨p1, q1 ++ s :: q, by rw [e]; simp, het⟩)
    · exact List.mem_append_left _ ((early_mem hn).2 ⟨p1, q1, e, het⟩)
    · exact List.mem_append_right _ ((late_mem hnp).2 ⟨p1, q1, e, het⟩)

/-- From the place in the final order to the place in the document. -/
theorem order_split {l : List Val} (hn : NamedImports l) {o1 o2 : List Val} {s : Val} (h : (takeVals l).1 ++ (takeVals l).2 = o1 ++ s :: o2) :
    ∃ p q, l = p ++ s :: q ∧ ∀ t, t ∈ o1 ↔ ComesFirst p s q t := by
  rcases first_split h with ⟨t, e⟩ | ⟨t, e1, e2⟩
  · obtain ⟨p, q, rfl, h1, h2⟩ := takeEarly_first [] e
    have he : EarlyAt p s := (early_iff _ (Nat.le_refl _) hn rfl).1 fun i hi => by
      rw [h1]
      rcases h2 i hi with h | h
      · exact h
      · cases h
    exact ⟨p, q, rfl, fun n => h1 ▸ first_early hn he n⟩
  · obtain ⟨p, q, rfl, h1, i, hi, h2, _⟩ := takeEarly_second [] e2
    have he : ¬ EarlyAt p s := fun he => h2 ((early_iff _ (Nat.le_refl _) hn rfl).2 he i hi)
    exact ⟨p, q, rfl, fun n => e1 ▸ h1 ▸ first_late hn he n⟩

/-- From the place in the document to the place in the final order. -/
theorem order_place {p : List Val} {s : Val} {q : List Val} (hn : NamedImports (p ++ s :: q)) :
    ∃ o1 o2, (takeVals (p ++ s :: q)).1 ++ (takeVals (p ++ s :: q)).2 = o1 ++ s :: o2 ∧
      ∀ t, t ∈ o1 ↔ ComesFirst p s q t := by
  by_cases he : EarlyAt p s
  · have hc : ¬ (valImports s).any (fun i => decide (i ∉ ((takeVals p).1.reverse.map valTarget ++ []))) = true := by
      simp only [List.any_eq_true, decide_eq_true_eq, not_exists, not_and, Classical.not_not]
      intro i hi
      simpa using (early_iff _ (Nat.le_refl _) hn rfl).2 he i hi
    have key : ∃ o2, (takeVals (p ++ s :: q)).1 ++ (takeVals (p ++ s :: q)).2 = (takeVals p).1 ++ s :: o2 := by
      rw [takeVals, takeEarly_append, takeEarly, if_neg hc]
      simp only [List.append_assoc, List.cons_append]
      exact ⟨_, rfl⟩
    obtain ⟨o2, ho⟩ := key
    exact ⟨(takeVals p).1, o2, ho, first_early hn he⟩
  · have hc : (valImports s).any (fun i => decide (i ∉ ((takeVals p).1.reverse.map valTarget ++ []))) = true := by
      by_cases hc : (valImports s).any (fun i => decide (i ∉ ((takeVals p).1.reverse.map valTarget ++ []))) = true
      · exact hc
      · exfalso
        apply he
        apply (early_iff _ (Nat.le_refl _) hn rfl).1
        simp only [List.any_eq_true, decide_eq_true_eq, not_exists, not_and, Classical.not_not] at hc
        intro i hi
        simpa using hc i hi
    have key : ∃ o2, (takeVals (p ++ s :: q)).2 = (takeVals p).2 ++ s :: o2 := by
      rw [takeVals, takeEarly_append, takeEarly, if_pos hc]
      exact ⟨_, rfl⟩
    obtain ⟨o2, ho⟩ := key
    exact ⟨(takeVals (p ++ s :: q)).1 ++ (takeVals p).2, o2, by rw [ho, List.append_assoc], first_late hn he⟩

theorem reorderDescribed_eq (l : List Val) : reorderDescribed (l.map readSchema) = ((takeVals l).1 ++ (takeVals l).2).map readSchema := by
  have e : ((l.map readSchema).zipIdx.map fun p => (⟨p.1.targetNamespace, p.1.imports, p.2⟩ : WsdlSchema)) =
      l.zipIdx.map fun p => ⟨valTarget p.1, valImports p.1, p.2⟩ := by
    rw [List.zipIdx_map, List.map_map]
    rfl
  unfold reorderDescribed
  rw [e, reorder_eq, takeSchemas_map (imp := fun p : Val × Nat => valImports p.1) (tgt := fun p : Val × Nat => valTarget p.1) (fun _ => rfl) (fun _ => rfl)]
  have hz : l.zipIdx.map (·.1) = l := by simp
  have em := takeEarly_map (imp := fun p : Val × Nat => valImports p.1) (tgt := fun p : Val × Nat => valTarget p.1) (imp' := valImports) (tgt' := valTarget)
    (f := fun p : Val × Nat => p.1) (fun _ => rfl) (fun _ => rfl) l.zipIdx []
  rw [hz] at em
  rw [takeVals, em]
  simp only
  rw [← List.map_append, ← List.map_append]
  have hsub := fun a => takeEarly_sub (imp := fun p : Val × Nat => valImports p.1) (tgt := fun p : Val × Nat => valTarget p.1) [] l.zipIdx a
  generalize (takeEarly (fun p : Val × Nat => valImports p.1) (fun p : Val × Nat => valTarget p.1) [] l.zipIdx).1 ++
    (takeEarly (fun p : Val × Nat => valImports p.1) (fun p : Val × Nat => valTarget p.1) [] l.zipIdx).2 = o at *
  rw [List.filterMap_map, List.map_map]
  induction o with
  | nil => rfl
  | cons a o ih =>
    have ha := List.mem_zipIdx_iff_getElem?.1 (hsub a (by simp))
    rw [List.filterMap_cons, List.map_cons, ← ih fun b hb => hsub b (by simp [hb])]
    simp [ha]

/-! ### Code for the schemas -/

theorem schemasOf_unique {d : Val} {l l' : List Val} (h : SchemasOf d l) (h' : SchemasOf d l') : l = l' := by
  rcases h.1 with e | ⟨t, h1, h2⟩
  · rcases h'.1 with e' | ⟨t, h1, h2⟩
    · rw [e, e']
    · rw [h.2 t _ h1 h2]
  · rw [h'.2 t _ h1 h2]

/-- The module for a schema: the variables it sets and needs. -/
def InlineCode (digest : Str → Str) (parent : Option Str) (s : Val) (c : PyModule) : Prop :=
  (∃ ns, (valTarget s).or parent = some ns ∧ c.schema.var = varFor digest ns) ∧
    All2 (fun o v => ∃ ns, o = some ns ∧ v = varFor digest ns) (valImports s) c.schema.imports

theorem schemaToPy_ok {prefixes : List (Option Str)} {digest : Str → Str} {k : Nat} {parent : Option Str} {s : Val} {c : PyModule}
    (h : schemaToPy prefixes digest k parent (readSchema s) = .ok c) : InlineCode digest parent s c := by
  unfold schemaToPy at h
  obtain ⟨cts, _, h⟩ := bind_eq_ok.1 h
  obtain ⟨r, hr, h⟩ := bind_eq_ok.1 h
  injection h with h; subst h
  have := fileCode_ok (netlocOk := fun _ => true) (digest := digest) (types := []) (location := []) (prefixes := prefixes)
    (ls := (readSchema s).includes) (c := ({ module := r.1 }, r.2))
    (d := { readSchema s with complexTypes := cts, targetNamespace := (readSchema s).targetNamespace.or parent }) (by
      unfold fileCode
      simp only [List.take_length]
      rw [hr]
      rfl)
  obtain ⟨⟨ns, h1, _, h2⟩, h3, _⟩ := this
  exact ⟨⟨ns, h1, h2⟩, h3⟩

theorem execModule_imports {vars : SchemaVars} {env : PyEnv} {limit : Nat} {c : PyModule} {r} (h : execModule vars env limit c = .ok r) :
    ∃ is, mapI (schemaVar vars) c.schema.imports = .ok is := by
  have : execFile limit vars env { module := c } = .ok (r.1, [(c.schema.var, r.2.targetNamespace, none)] ++ vars, r.2) := by
    unfold execFile
    rw [h]
    rfl
  obtain ⟨is, _, h1, _⟩ := execFile_ok this
  exact ⟨is, h1⟩

theorem execModules_append {limit : Nat} {env : PyEnv} {vars : List (Str × GSchema)} {l l' : List PyModule} {r}
    (h : execModules limit env vars (l ++ l') = .ok r) :
    ∃ y, execModules limit env vars l = .ok y ∧ execModules limit y.1 y.2 l' = .ok r := by
  induction l generalizing env vars with
  | nil => exact ⟨_, rfl, h⟩
  | cons c l ih =>
    simp only [List.cons_append, execModules] at h ⊢
    obtain ⟨a, ha, h⟩ := bindI h
    obtain ⟨y, h1, h2⟩ := ih h
    exact ⟨y, by rw [ha]; exact h1, h2⟩

theorem execModules_names {limit : Nat} {env : PyEnv} {vars : List (Str × GSchema)} {l : List PyModule} {r}
    (h : execModules limit env vars l = .ok r) : r.2.map (·.1) = (l.map (·.schema.var)).reverse ++ vars.map (·.1) := by
  induction l generalizing env vars with
  | nil => injection h with h; subst h; rfl
  | cons c l ih =>
    simp only [execModules] at h
    obtain ⟨a, ha, h⟩ := bindI h
    rw [ih h]
    simp

theorem mapI_each {α β : Type} {f : α → Except ImportErr β} : ∀ {l : List α} {r : List β}, mapI f l = .ok r → ∀ a ∈ l, ∃ b, f a = .ok b
  | [], _, _, a, ha => by cases ha
  | c :: l, _, h, a, ha => by
    unfold mapI at h
    obtain ⟨b, hb, h⟩ := bindI h
    obtain ⟨bs, hbs, _⟩ := bindI h
    rcases List.mem_cons.1 ha with rfl | ha
    · exact ⟨b, hb⟩
    · exact mapI_each hbs a ha

section
variable {digest : Str → Str} {netlocOk : Str → Bool} {prefixes : List (Option Str)} {k : Nat} {server : Bool} {v : Version}
  {d : Val} {m : PyWsdlModule} {schemas : List Val}

/-- The modules, in the final order. -/
theorem wsdl_modules (h : wsdlToPy digest netlocOk prefixes k server v d = .ok m) (hs : SchemasOf d schemas) :
    All2 (InlineCode digest (readStr d py"targetNamespace")) ((takeVals schemas).1 ++ (takeVals schemas).2) m.schemas := by
  rw [schemasOf_unique hs (schemasOf_spec d)]
  unfold wsdlToPy at h
  obtain ⟨ms, h1, h⟩ := bind_eq_ok.1 h
  obtain ⟨_, _, h⟩ := bind_eq_ok.1 h
  injection h with h; subst h
  rw [reorderDescribed_eq] at h1
  exact (all2_mapped_left (mapE_all2 h1)).imp fun _ _ h => schemaToPy_ok h

theorem takeEarly_all {α : Type} {imp : α → List (Option Str)} {tgt : α → Option Str} (targets : List (Option Str)) (l : List α) (a : α) (h : a ∈ l) :
    a ∈ (takeEarly imp tgt targets l).1 ++ (takeEarly imp tgt targets l).2 := by
  induction l generalizing targets with
  | nil => cases h
  | cons s l ih =>
    unfold takeEarly
    split
    · rcases List.mem_cons.1 h with rfl | h
      · simp
      · have := ih targets h
        simp only [List.mem_append, List.mem_cons] at this ⊢
        rcases this with h | h <;> simp [h]
    · rcases List.mem_cons.1 h with rfl | h
      · simp
      · have := ih (tgt s :: targets) h
        simp only [List.mem_append, List.mem_cons] at this ⊢
        rcases this with h | h <;> simp [h]

theorem wsdl_named (h : wsdlToPy digest netlocOk prefixes k server v d = .ok m) (hs : SchemasOf d schemas) : NamedImports schemas := by
  intro s hm hn
  obtain ⟨c, _, hc⟩ := (wsdl_modules h hs).mem_left (takeEarly_all [] schemas s hm)
  obtain ⟨v, _, ns, e, _⟩ := hc.2.mem_left hn
  cases e

/-- What the statement for a schema finds, when the modules before it have been executed. -/
theorem inline_found (h : wsdlToPy digest netlocOk prefixes k server v d = .ok m) (hs : SchemasOf d schemas)
    (ht : ∀ s ∈ schemas, ∃ n, HasText s py"targetNamespace" n) {m1 m2 : List PyModule} {c : PyModule} (hm : m.schemas = m1 ++ c :: m2)
    {o1 o2 : List Val} {s : Val} (ho : (takeVals schemas).1 ++ (takeVals schemas).2 = o1 ++ s :: o2) (hl : o1.length = m1.length)
    {limit : Nat} {y} (hy : execModules limit [] [] m1 = .ok y) :
    InlineCode digest (readStr d py"targetNamespace") s c ∧
    (∀ n, (∃ t ∈ o1, HasText t py"targetNamespace" n) → ∃ p ∈ y.2, p.1 = varFor digest n) ∧
    ∀ p ∈ y.2, ∃ t ∈ o1, ∃ n, HasText t py"targetNamespace" n ∧ p.1 = varFor digest n := by
  have hw := wsdl_modules h hs
  rw [ho, hm] at hw
  obtain ⟨a1, a2, e, h1, h2⟩ := all2_append_left hw
  have el : a1.length = m1.length := by rw [← h1.length, hl]
  obtain ⟨rfl, e2⟩ := List.append_inj e el.symm
  subst e2
  cases h2 with
  | cons h2 h3 =>
    have hv := execModules_names hy
    simp only [List.map_nil, List.append_nil] at hv
    have own : ∀ t ∈ o1, ∀ c', InlineCode digest (readStr d py"targetNamespace") t c' → ∀ n, HasText t py"targetNamespace" n → c'.schema.var = varFor digest n := by
      intro t ht c' ⟨⟨ns, e1, e2⟩, _⟩ n hn
      rw [valTarget_iff.2 hn] at e1
      injection e1 with e1
      rw [e2, ← e1]
    refine ⟨h2, ?_, ?_⟩
    · rintro n ⟨t, hto, htn⟩
      obtain ⟨c', hc', hic⟩ := h1.mem_left hto
      have : c'.schema.var ∈ y.2.map (·.1) := by
        rw [hv, List.mem_reverse]
        exact List.mem_map.2 ⟨c', hc', rfl⟩
      obtain ⟨p, hp, e⟩ := List.mem_map.1 this
      exact ⟨p, hp, e.trans (own t hto c' hic n htn)⟩
    · intro p hp
      have : p.1 ∈ y.2.map (·.1) := List.mem_map.2 ⟨p, hp, rfl⟩
      rw [hv, List.mem_reverse] at this
      obtain ⟨c', hc', e⟩ := List.mem_map.1 this
      obtain ⟨t, hto, hic⟩ := h1.mem_right hc'
      obtain ⟨n, hn⟩ := ht t (takeEarly_sub (imp := valImports) (tgt := valTarget) [] schemas t (by rw [← takeVals, ho]; simp [hto]))
      exact ⟨t, hto, n, hn, e.symm.trans (own t hto c' hic n hn)⟩

/-- **C119 (loaded).** If the module generated for a WSDL document can be imported, a schema with each imported namespace is there when the
importing schema is created. -/
theorem C119_loaded (h : wsdlToPy digest netlocOk prefixes k server v d = .ok m) (hs : SchemasOf d schemas)
    (ht : ∀ s ∈ schemas, ∃ n, HasText s py"targetNamespace" n) (hd : DistinctDigests digest schemas) (limit : Nat) (x)
    (hx : execWsdl limit m = .ok x) (before : List Val) (s : Val) (after : List Val) (e : schemas = before ++ s :: after) (n : Str)
    (hi : ImportsNs s n) : ThereFor before s after n := by
  have hn := wsdl_named h hs
  unfold execWsdl at hx
  obtain ⟨_, _, hx⟩ := bindI hx
  obtain ⟨_, _, hx⟩ := bindI hx
  obtain ⟨r, hr, _⟩ := bindI hx
  obtain ⟨o1, o2, ho, hth⟩ := order_place (e ▸ hn)
  rw [← e] at ho
  have hw := wsdl_modules h hs
  rw [ho] at hw
  obtain ⟨m1, m2, hm, h1, h2⟩ := all2_append_left hw
  cases h2 with
  | cons h2 h3 =>
    rename_i c m2
    rw [hm] at hr
    obtain ⟨y, hy, hr⟩ := execModules_append hr
    obtain ⟨hc, _, hback⟩ := inline_found h hs ht hm ho h1.length hy
    unfold execModules at hr
    obtain ⟨a, ha, _⟩ := bindI hr
    obtain ⟨is, his⟩ := execModule_imports ha
    obtain ⟨v, hv, ns, e1, e2⟩ := hc.2.mem_left (valImports_iff.2 hi)
    injection e1 with e1
    subst e1
    have hvv : ∃ z, schemaVar (y.2.map fun p => (p.1, p.2.targetNamespace, none)) v = .ok z := mapI_each his v hv
    obtain ⟨z, hz⟩ := hvv
    obtain ⟨p, hp, ep⟩ := List.mem_map.1 (schemaVar_ok hz)
    obtain ⟨t, hto, n', hn', ev⟩ := hback p hp
    have : v = varFor digest n' := by rw [← ev]; injection ep with ep _; exact ep.symm
    have hds := varFor_inj (e2.symm.trans this)
    have hsub : ∀ t ∈ o1, t ∈ schemas := fun t ht => takeEarly_sub (imp := valImports) (tgt := valTarget) [] schemas t (by rw [← takeVals, ho]; simp [ht])
    have := hd n n' ⟨s, by rw [e]; simp, .inr hi⟩ ⟨t, hsub t hto, .inl hn'⟩ hds
    subst this
    exact ⟨t, (hth t).1 hto, hn'⟩

/-- **C119 (found).** If a schema with each imported namespace is there in this sense, every schema finds the schemas it imports when the module
is imported. -/
theorem C119_found (h : wsdlToPy digest netlocOk prefixes k server v d = .ok m) (hs : SchemasOf d schemas)
    (ht : ∀ s ∈ schemas, ∃ n, HasText s py"targetNamespace" n)
    (ha : ∀ before s after, schemas = before ++ s :: after → ∀ n, ImportsNs s n → ThereFor before s after n) (limit : Nat)
    (m1 : List PyModule) (c : PyModule) (m2 : List PyModule) (hm : m.schemas = m1 ++ c :: m2) (y) (hy : execModules limit [] [] m1 = .ok y) :
    ∃ is, mapI (schemaVar (y.2.map fun p => (p.1, p.2.targetNamespace, none))) c.schema.imports = .ok is := by
  have hn := wsdl_named h hs
  have hw := wsdl_modules h hs
  rw [hm] at hw
  obtain ⟨o1, o2, ho, h1, h2⟩ := all2_append_right hw
  cases h2 with
  | cons h2 h3 =>
    rename_i s o2
    obtain ⟨p, q, e, hth⟩ := order_split hn ho
    obtain ⟨hc, hfor, _⟩ := inline_found h hs ht hm ho h1.length hy
    refine mapI_found fun w hwm => ?_
    obtain ⟨o, ho', ns, rfl, rfl⟩ := hc.2.mem_right hwm
    obtain ⟨t, hto, htn⟩ := ha p s q e ns (valImports_iff.1 ho')
    obtain ⟨z, hz, ez⟩ := hfor ns ⟨t, (hth t).2 hto, htn⟩
    exact schemaVar_some ⟨_, List.mem_map.2 ⟨z, hz, rfl⟩, ez⟩

end

/-- Every schema of a document imports namespaces of schemas before it: all are early. -/
theorem early_sorted {schemas : List Val} (h : ∀ before s after, schemas = before ++ s :: after → ∀ n, ImportsNs s n →
      ∃ t ∈ before, HasText t py"targetNamespace" n) : ∀ (k : Nat) (before : List Val) (s : Val) (after : List Val), before.length ≤ k →
    schemas = before ++ s :: after → EarlyAt before s := by
  intro k
  induction k with
  | zero =>
    intro before s after hl e
    cases before with
    | cons => simp at hl
    | nil =>
      refine earlyAt_iff.2 fun n hn => ?_
      obtain ⟨t, ht, _⟩ := h _ _ _ e n hn
      cases ht
  | succ k ih =>
    intro before s after hl e
    refine earlyAt_iff.2 fun n hn => ?_
    obtain ⟨t, ht, htn⟩ := h _ _ _ e n hn
    obtain ⟨p, q, rfl⟩ := List.append_of_mem ht
    exact ⟨p, t, q, rfl, ih p t (q ++ s :: after) (by simp at hl; omega) (by rw [e]; simp), htn⟩

/-- **C119 (sorted).** It is enough that each imported namespace is that of a schema before the importing one in the document. -/
theorem C119_sorted {schemas : List Val} (h : ∀ before s after, schemas = before ++ s :: after → ∀ n, ImportsNs s n →
      ∃ t ∈ before, HasText t py"targetNamespace" n) (before : List Val) (s : Val) (after : List Val) (e : schemas = before ++ s :: after)
    (n : Str) (hi : ImportsNs s n) : ThereFor before s after n := by
  obtain ⟨p, t, q, e1, e2, e3⟩ := earlyAt_iff.1 (early_sorted h _ before s after (Nat.le_refl _) e) n hi
  exact ⟨t, .early p q e1 e2, e3⟩

/-- **C119 (one step).** It is enough, in any order, that each imported namespace is that of a schema that imports nothing. -/
theorem C119_leaves {schemas : List Val} (h : ∀ s ∈ schemas, ∀ n, ImportsNs s n →
      ∃ t ∈ schemas, HasText t py"targetNamespace" n ∧ ∀ n', ¬ ImportsNs t n') (before : List Val) (s : Val) (after : List Val)
    (e : schemas = before ++ s :: after) (n : Str) (hi : ImportsNs s n) : ThereFor before s after n := by
  by_cases he : EarlyAt before s
  · obtain ⟨p, t, q, e1, e2, e3⟩ := earlyAt_iff.1 he n hi
    exact ⟨t, .early p q e1 e2, e3⟩
  · obtain ⟨t, ht, htn, hno⟩ := h s (by rw [e]; simp) n hi
    obtain ⟨p, q, e'⟩ := List.append_of_mem ht
    exact ⟨t, .moved p q he (e.symm.trans e') (earlyAt_iff.2 fun n' hn' => absurd hn' (hno n')), htn⟩

/-- Whatever is there is a schema of the document, and one that is not early is there for no schema before it. -/
theorem there_mem {before : List Val} {s : Val} {after : List Val} {n : Str} (h : ThereFor before s after n) :
    ∃ p t q, before ++ s :: after = p ++ t :: q ∧ HasText t py"targetNamespace" n ∧ (EarlyAt p t ∨ p.length < before.length) := by
  rcases h with ⟨t, ⟨p, q, e, he⟩ | ⟨p, q, _, e, he⟩ | ⟨p, q, _, e, he⟩, ht⟩
  · exact ⟨p, t, q ++ s :: after, by rw [e]; simp, ht, .inl he⟩
  · exact ⟨p, t, q, e, ht, .inl he⟩
  · exact ⟨p, t, q ++ s :: after, by rw [e]; simp, ht, .inr (by rw [e]; simp)⟩

/-- A namespace that only a schema after it has, which imports a namespace of no schema before that one, is not there. -/
theorem not_there {a b c : List Val} {s t : Val} (n n' : Str) (ho : ∀ u ∈ a ++ s :: (b ++ c), ¬ HasText u py"targetNamespace" n)
    (hi' : ImportsNs t n') (ho' : ∀ u ∈ a ++ s :: b, ¬ HasText u py"targetNamespace" n') : ¬ ThereFor a s (b ++ t :: c) n := by
  intro h
  obtain ⟨p, u, q, e, hu, hlt⟩ := there_mem h
  have e0 : a ++ s :: (b ++ t :: c) = (a ++ s :: b) ++ t :: c := by simp
  rw [e0] at e
  rcases first_split e with ⟨z, ez⟩ | ⟨z, e1, e2⟩
  · refine ho u ?_ hu
    have : u ∈ a ++ s :: b := by rw [ez]; simp
    simp only [List.mem_append, List.mem_cons] at this ⊢
    rcases this with h | h | h <;> simp [h]
  · cases z with
    | cons z0 z =>
      injection e2 with e2 e3
      refine ho u ?_ hu
      have : u ∈ c := by rw [e3]; simp
      simp [this]
    | nil =>
      injection e2 with e2 e3
      subst e2
      simp only [List.append_nil] at e1
      rcases hlt with he | hlt
      · obtain ⟨p', w, q', e4, _, hw⟩ := earlyAt_iff.1 he n' hi'
        rw [e1] at e4
        exact ho' w (by rw [e4]; simp) hw
      · rw [e1] at hlt
        simp at hlt

section
variable {digest : Str → Str} {netlocOk : Str → Bool} {prefixes : List (Option Str)} {k : Nat} {server : Bool} {v : Version}
  {d : Val} {m : PyWsdlModule}

/-- **C119 (chain).** A schema that imports one after it, which in turn imports a namespace of no schema before that one, makes the module
impossible to import, although there need be no circle. -/
theorem C119_chain {a b c : List Val} {s t : Val} (h : wsdlToPy digest netlocOk prefixes k server v d = .ok m)
    (hs : SchemasOf d (a ++ s :: (b ++ t :: c))) (ht : ∀ u ∈ a ++ s :: (b ++ t :: c), ∃ n, HasText u py"targetNamespace" n)
    (hd : DistinctDigests digest (a ++ s :: (b ++ t :: c))) (n n' : Str) (hi : ImportsNs s n)
    (ho : ∀ u ∈ a ++ s :: (b ++ c), ¬ HasText u py"targetNamespace" n) (hi' : ImportsNs t n')
    (ho' : ∀ u ∈ a ++ s :: b, ¬ HasText u py"targetNamespace" n') (limit : Nat) (x) : execWsdl limit m ≠ .ok x :=
  fun hx => not_there n n' ho hi' ho' (C119_loaded h hs ht hd limit x hx a s _ rfl n hi)

/-- **C119 (circle).** Schemas each of which imports a namespace that only some of them have make the module impossible to import. -/
theorem C119_circle {schemas : List Val} (h : wsdlToPy digest netlocOk prefixes k server v d = .ok m)
    (hs : SchemasOf d schemas) (ht : ∀ s ∈ schemas, ∃ n, HasText s py"targetNamespace" n) (hd : DistinctDigests digest schemas)
    (C : Val → Prop) (s : Val) (hsm : s ∈ schemas) (hc : C s)
    (hC : ∀ s ∈ schemas, C s → ∃ n, ImportsNs s n ∧ ∀ t ∈ schemas, HasText t py"targetNamespace" n → C t)
    (limit : Nat) (x) : execWsdl limit m ≠ .ok x := by
  intro hx
  have hl := C119_loaded h hs ht hd limit x hx
  -- no member is early
  have never : ∀ (k : Nat) (p : List Val) (t : Val) (q : List Val), p.length ≤ k → schemas = p ++ t :: q → C t → ¬ EarlyAt p t := by
    intro k
    induction k with
    | zero =>
      intro p t q hk e hct he
      cases p with
      | cons => simp at hk
      | nil =>
        obtain ⟨n, hn, _⟩ := hC t (by rw [e]; simp) hct
        obtain ⟨p', w, q', e', _⟩ := earlyAt_iff.1 he n hn
        cases p' <;> cases e'
    | succ k ih =>
      intro p t q hk e hct he
      obtain ⟨n, hn, hall⟩ := hC t (by rw [e]; simp) hct
      obtain ⟨p', w, q', rfl, hew, hwn⟩ := earlyAt_iff.1 he n hn
      have e' : schemas = p' ++ w :: (q' ++ t :: q) := by rw [e]; simp
      exact ih p' w _ (by simp at hk; omega) e' (hall w (by rw [e']; simp) hwn) hew
  -- so there is no first member
  have none : ∀ (k : Nat) (p : List Val) (t : Val) (q : List Val), p.length ≤ k → schemas = p ++ t :: q → C t → False := by
    intro k
    induction k with
    | zero =>
      intro p t q hk e hct
      obtain ⟨n, hn, hall⟩ := hC t (by rw [e]; simp) hct
      obtain ⟨p', u, q', e', hu, hlt⟩ := there_mem (hl p t q e n hn)
      rcases hlt with he | hlt
      · exact never _ p' u q' (Nat.le_refl _) (e.trans e') (hall u (by rw [e, e']; simp) hu) he
      · omega
    | succ k ih =>
      intro p t q hk e hct
      obtain ⟨n, hn, hall⟩ := hC t (by rw [e]; simp) hct
      obtain ⟨p', u, q', e', hu, hlt⟩ := there_mem (hl p t q e n hn)
      have hcu := hall u (by rw [e, e']; simp) hu
      rcases hlt with he | hlt
      · exact never _ p' u q' (Nat.le_refl _) (e.trans e') hcu he
      · exact ih p' u q' (by omega) (e.trans e') hcu
  obtain ⟨p, q, e⟩ := List.append_of_mem hsm
  exact none _ p s q (Nat.le_refl _) e hc

end

namespace ExInline

/-- A schema with a namespace that imports others. -/
def schema (ns : Str) (imports : List Str) : Val := Ex.obj [(py"targetNamespace", Ex.txt ns),
  (py"imports", .list true (imports.map fun n => Ex.obj [(py"namespace", Ex.txt n)])),
  (py"elements", .list true [Ex.obj [(py"name", Ex.txt (py"e" ++ ns)), (py"type", Ex.txt py"xsd:string")]])]

/-- A document with those schemas and nothing else. -/
def document (schemas : List Val) : Val := Ex.obj [(py"targetNamespace", Ex.txt py"w"), (py"types", Ex.obj [(py"schemas", .list true schemas)])]

def loaded (schemas : List Val) : Option (Except ImportErr Nat) :=
  match wsdlToPy id (fun _ => true) [some py"xsd"] 5 false .soap11 (document schemas) with
  | .ok m => some ((execWsdl 10 m).map (·.1.length))
  | .error _ => none

/-- Three schemas in a chain: only orders in which the second one comes after the third, or the first one after the second, work. -/
example : loaded [schema py"a" [py"b"], schema py"b" [py"c"], schema py"c" []] = some (.error (.raised .nameError)) := rfl
example : loaded [schema py"a" [py"b"], schema py"c" [], schema py"b" [py"c"]] = some (.ok 3) := rfl
example : loaded [schema py"b" [py"c"], schema py"a" [py"b"], schema py"c" []] = some (.ok 3) := rfl
example : loaded [schema py"c" [], schema py"b" [py"c"], schema py"a" [py"b"]] = some (.ok 3) := rfl

/-- Two schemas that import each other. -/
example : loaded [schema py"a" [py"b"], schema py"b" [py"a"]] = some (.error (.raised .nameError)) := rfl

/-- A namespace that no schema has. -/
example : loaded [schema py"a" [py"b"]] = some (.error (.raised .nameError)) := rfl

theorem imports_iff {ns : Str} {l : List Str} {n : Str} : ImportsNs (schema ns l) n ↔ n ∈ l := by
  rw [← valImports_iff]
  have : valImports (schema ns l) = l.map some := by
    show List.map _ (readList _ _) = _
    have : readList (schema ns l) py"imports" = l.map fun n => Ex.obj [(py"namespace", Ex.txt n)] := rfl
    rw [this, List.map_map]
    rfl
  rw [this]
  simp

theorem target_iff {ns : Str} {l : List Str} {n : Str} : HasText (schema ns l) py"targetNamespace" n ↔ ns = n := by
  rw [← valTarget_iff]
  have : valTarget (schema ns l) = some ns := rfl
  rw [this]
  simp

/-- The properties apply: the chain cannot be imported, whatever the limit. -/
example (m : PyWsdlModule) (h : wsdlToPy id (fun _ => true) [some py"xsd"] 5 false .soap11
      (document [schema py"a" [py"b"], schema py"b" [py"c"], schema py"c" []]) = .ok m) (limit : Nat) (x) : execWsdl limit m ≠ .ok x := by
  refine C119_chain (a := []) (b := []) (c := [schema py"c" []]) (s := schema py"a" [py"b"]) (t := schema py"b" [py"c"]) h
    (schemasOf_spec _) ?_ (fun _ _ _ _ h => h) py"b" py"c" (imports_iff.2 (by simp)) ?_ (imports_iff.2 (by simp)) ?_ limit x
  · intro u hu
    simp only [List.nil_append, List.mem_cons, List.not_mem_nil, or_false] at hu
    rcases hu with rfl | rfl | rfl <;> exact ⟨_, target_iff.2 rfl⟩
  · intro u hu
    simp only [List.nil_append, List.mem_cons, List.not_mem_nil, or_false] at hu
    rcases hu with rfl | rfl <;> rw [target_iff] <;> decide
  · intro u hu
    simp only [List.nil_append, List.mem_cons, List.not_mem_nil, or_false] at hu
    subst hu
    rw [target_iff]
    decide

end ExInline

end Soapfish
