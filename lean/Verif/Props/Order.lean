import Verif.Order
import Verif.Spec.Order
import Verif.Props.Imports
/-
Order of complex types in generated code (C77).
-/
namespace Soapfish

/-! ### Sorting -/

section
variable {α : Type} {lt : α → α → Except Exn Bool} {r : α → α → Bool}

theorem listInsert_ok {x : α} {l : List α} (h : ∀ y ∈ l, lt x y = .ok (r x y)) : ∃ l1 l2, l = l1 ++ l2 ∧
    listInsert lt x l = .ok (l1 ++ x :: l2) ∧ (∀ y ∈ l1, r x y = false) ∧ ∀ y, l2.head? = some y → r x y = true := by
  induction l with
  | nil => exact ⟨[], [], rfl, rfl, by simp, by simp⟩
  | cons y l ih =>
    unfold listInsert
    rw [h y (by simp)]
    cases hr : r x y with
    | true => exact ⟨[], y :: l, rfl, rfl, by simp, by simp [hr]⟩
    | false =>
      obtain ⟨l1, l2, rfl, he, h1, h2⟩ := ih fun z hz => h z (by simp [hz])
      refine ⟨y :: l1, l2, rfl, ?_, ?_, h2⟩
      · simp only [Except.bind]
        rw [if_neg (by simp), he]
        rfl
      · intro z hz
        rcases List.mem_cons.1 hz with rfl | hz
        · exact hr
        · exact h1 z hz

/-- Sorted: nothing is less than what comes before it. -/
def SortedBy (r : α → α → Bool) (l : List α) : Prop := l.Pairwise fun a b => r b a = false

theorem listSort_ok {l acc : List α} (h : ∀ x ∈ acc ++ l, ∀ y ∈ acc ++ l, lt x y = .ok (r x y))
    (ht : ∀ x y z, r x y = true → r z y = false → r x z = true) (hn : ∀ x y, r x y = true → r y x = false)
    (hs : SortedBy r acc) : ∃ l', listSort lt acc l = .ok l' ∧ l'.Perm (acc ++ l) ∧ SortedBy r l' := by
  induction l generalizing acc with
  | nil => exact ⟨acc, rfl, by simp, hs⟩
  | cons x l ih =>
    obtain ⟨l1, l2, rfl, he, h1, h2⟩ := listInsert_ok (x := x) (l := acc) (lt := lt) (r := r)
      fun y hy => h x (by simp) y (by simp [hy])
    have hp : (l1 ++ x :: l2 ++ l).Perm (l1 ++ l2 ++ x :: l) := by
      refine List.Perm.trans ?_ List.perm_middle.symm
      rw [List.append_assoc]
      refine List.perm_middle.trans ?_
      simp
    have hs' : SortedBy r (l1 ++ x :: l2) := by
      unfold SortedBy at hs ⊢
      rw [List.pairwise_append] at hs ⊢
      obtain ⟨a1, a2, a3⟩ := hs
      refine ⟨a1, ?_, ?_⟩
      · rw [List.pairwise_cons]
        refine ⟨?_, a2⟩
        cases l2 with
        | nil => simp
        | cons y l2 =>
          have hxy := h2 y rfl
          rw [List.pairwise_cons] at a2
          intro z hz
          rcases List.mem_cons.1 hz with rfl | hz
          · exact hn _ _ hxy
          · exact hn _ _ (ht x y z hxy (a2.1 z hz))
      · intro a ha b hb
        rcases List.mem_cons.1 hb with rfl | hb
        · exact h1 a ha
        · exact a3 a ha b hb
    obtain ⟨l', e, p, s⟩ := ih (acc := l1 ++ x :: l2)
      (fun a ha b hb => h a (hp.subset ha) b (hp.subset hb)) hs'
    refine ⟨l', ?_, p.trans hp, s⟩
    rw [listSort, he]
    exact e

theorem before_total {l : List α} {a b : α} (ha : a ∈ l) (hb : b ∈ l) (hab : a ≠ b) : Before l a b ∨ Before l b a := by
  obtain ⟨p, q, rfl⟩ := List.append_of_mem ha
  rcases List.mem_append.1 hb with h | h
  · obtain ⟨x, y, rfl⟩ := List.append_of_mem h
    exact .inr ⟨x, y, q, by simp⟩
  · rcases List.mem_cons.1 h with h | h
    · exact absurd h.symm hab
    · obtain ⟨x, y, rfl⟩ := List.append_of_mem h
      exact .inl ⟨p, x, y, by simp⟩

theorem before_sorted {l : List α} {a b : α} (hs : SortedBy r l) (ha : a ∈ l) (hb : b ∈ l) (hab : a ≠ b) (h : r a b = true) :
    Before l a b := by
  rcases before_total ha hb hab with h' | ⟨l1, l2, l3, rfl⟩
  · exact h'
  · unfold SortedBy at hs
    rw [List.pairwise_append] at hs
    have := (List.pairwise_cons.1 hs.2.1).1 a (by simp)
    rw [h] at this
    cases this

end

/-! ### Weights -/

/-- The base a type is given. -/
def TypeDecl.base (t : TypeDecl) : Str :=
  match t.content with
  | .extension b => b
  | .restriction b => b
  | _ => []

def weightList : Nat → List TypeDecl → Weights
  | _, [] => []
  | n, t :: l => weightList (n + 1) l ++ [(t.name, n, t.base)]

theorem weighTypes_eq {l : List TypeDecl} (h : ∀ t ∈ l, t.content ≠ .neither) (n : Nat) (base : Option Str) (w : Weights) :
    weighTypes n base w l = .ok (weightList n l ++ w) := by
  induction l generalizing n base w with
  | nil => rfl
  | cons t l ih =>
    have ht := h t (by simp)
    have ih' := ih fun u hu => h u (by simp [hu])
    unfold weighTypes weightList
    have : boundBase base t.content = some t.base := by
      unfold TypeDecl.base
      cases hc : t.content with
      | neither => exact absurd hc ht
      | _ => rfl
    rw [this]
    simp only
    rw [ih']
    simp

theorem weightList_find {l : List TypeDecl} (hnd : (l.map (·.name)).Nodup) (n : Nat) {l1 l2 : List TypeDecl} {t : TypeDecl}
    (he : l = l1 ++ t :: l2) : weightOf (weightList n l) t.name = .ok (n + l1.length, t.base) := by
  have hfind : (weightList n l).find? (fun w => w.1 = t.name) = some (t.name, n + l1.length, t.base) := by
    induction l1 generalizing n l with
    | nil =>
      subst he
      simp only [List.nil_append, weightList, List.find?_append]
      have : (weightList (n + 1) l2).find? (fun w => w.1 = t.name) = none := by
        rw [List.find?_eq_none]
        have hmem : ∀ (n : Nat) (w : Str × Nat × Str), w ∈ weightList n l2 → w.1 ∈ l2.map (·.name) := by
          clear hnd
          induction l2 with
          | nil => intro n w hw; simp [weightList] at hw
          | cons u l2 ih =>
            intro n w hw
            unfold weightList at hw
            rcases List.mem_append.1 hw with hw | hw
            · exact List.mem_cons_of_mem _ (ih _ _ hw)
            · simp only [List.mem_singleton] at hw
              simp [hw]
        intro w hw
        simp only [decide_eq_true_eq]
        intro e
        have := hmem _ w hw
        rw [e] at this
        exact (List.nodup_cons.1 hnd).1 this
      rw [this]
      simp
    | cons u l1 ih =>
      subst he
      simp only [List.cons_append, List.map_cons, List.nodup_cons] at hnd
      simp only [List.cons_append, weightList, List.find?_append]
      rw [ih hnd.2 (n + 1) rfl]
      simp
      omega
  unfold weightOf
  rw [hfind]

/-! ### Comparing -/

/-- `Chain w a i k`: going from `a` to its base `k` times leads to the plain type at position `i`. -/
inductive Chain (w : Weights) : Str → Nat → Nat → Prop where
  | root {a : Str} {i : Nat} (h : weightOf w a = .ok (i, [])) : Chain w a i 0
  | step {a b : Str} {i j k : Nat} (h : weightOf w a = .ok (j, b)) (hb : b ≠ []) (hc : Chain w b i k) : Chain w a i (k + 1)

theorem Chain.unique {w : Weights} {a : Str} {i j k m : Nat} (h : Chain w a i k) (h' : Chain w a j m) : i = j ∧ k = m := by
  induction h generalizing j m with
  | root h =>
    cases h' with
    | root h2 => rw [h] at h2; injection h2 with h2; injection h2 with h2; exact ⟨h2, rfl⟩
    | step h2 hb hc => rw [h] at h2; injection h2 with h2; injection h2 with _ h2; exact absurd h2.symm hb
  | step h hb hc ih =>
    cases h' with
    | root h2 => rw [h] at h2; injection h2 with h2; injection h2 with _ h2; exact absurd h2 hb
    | step h2 hb2 hc2 =>
      rw [h] at h2; injection h2 with h2; injection h2 with _ h2
      subst h2
      obtain ⟨e1, e2⟩ := ih hc2
      exact ⟨e1, by rw [e2]⟩

theorem cmp_chain {w : Weights} (hcolon : ∀ a i b, weightOf w a = .ok (i, b) → ':' ∉ b)
    (hempty : ∀ v, weightOf w [] ≠ .ok v) (hinj : ∀ a b i x y, weightOf w a = .ok (i, x) → weightOf w b = .ok (i, y) → a = b) {n : Nat} {a b : Str} {i j k m : Nat}
    (ha : Chain w a i k) (hb : Chain w b j m) (hk : k < n) (hm : m < n) :
    ∃ c, cmpTypes w n a b = .ok c ∧ (c < 0 ↔ i < j ∨ (i = j ∧ k < m)) := by
  induction n generalizing a b k m with
  | zero => omega
  | succ n ih =>
    unfold cmpTypes
    cases ha with
    | root h1 =>
      cases hb with
      | root h2 =>
        rw [h1, h2]
        refine ⟨(i : Int) - (j : Int), ?_, by omega⟩
        simp [Except.bind]
      | @step _ b2 _ jb m h2 hb2 hc2 =>
        rw [h1, h2]
        simp only [Except.bind]
        rw [if_neg (by simp [hb2]), if_neg]
        · by_cases hab : a = b2
          · subst hab
            obtain ⟨e1, e2⟩ := (Chain.root h1).unique hc2
            subst e1 e2
            rw [if_pos (.inl rfl)]
            exact ⟨-1, rfl, by omega⟩
          · rw [if_neg (by simp [hab, hcolon _ _ _ h2])]
            obtain ⟨c, hc, hs⟩ := ih (Chain.root h1) hc2 (by omega) (by omega)
            refine ⟨c, ?_, ?_⟩
            · simpa [hb2] using hc
            · rw [hs]
              cases hc2 with
              | root h3 =>
                have : i ≠ j := fun e => hab (hinj a b2 j [] [] (e ▸ h1) h3)
                omega
              | step _ _ _ => omega
        · rintro (h | h)
          · subst h
            exact hempty _ h2
          · simp at h
    | @step _ b1 _ _ k h1 hb1 hc1 =>
      by_cases hbb : b = b1
      · subst hbb
        obtain ⟨e1, e2⟩ := hc1.unique hb
        subst e1 e2
        have : ∃ v, weightOf w b = .ok v := by
          cases hb with
          | root h => exact ⟨_, h⟩
          | step h _ _ => exact ⟨_, h⟩
        obtain ⟨v, hv⟩ := this
        rw [h1, hv]
        simp only [Except.bind]
        rw [if_neg (by simp [hb1]), if_pos (.inl trivial)]
        exact ⟨1, rfl, by omega⟩
      · cases hb with
        | root h2 =>
          rw [h1, h2]
          simp only [Except.bind]
          have ha : a ≠ [] := by rintro rfl; exact hempty _ h1
          rw [if_neg (by simp [hb1]), if_neg (by simp [hbb, hcolon _ _ _ h1]), if_neg (by simp [ha])]
          obtain ⟨c, hc, hs⟩ := ih hc1 (Chain.root h2) (by omega) (by omega)
          refine ⟨c, by simpa [hb1] using hc, ?_⟩
          rw [hs]
          omega
        | @step _ b2 _ _ m h2 hb2 hc2 =>
          rw [h1, h2]
          simp only [Except.bind]
          rw [if_neg (by simp [hb1]), if_neg (by simp [hbb, hcolon _ _ _ h1])]
          by_cases hab : a = b2
          · subst hab
            obtain ⟨e1, e2⟩ := hc2.unique (Chain.step h1 hb1 hc1)
            subst e1 e2
            rw [if_pos (.inl rfl)]
            exact ⟨-1, rfl, by omega⟩
          · rw [if_neg (by simp [hab, hcolon _ _ _ h2])]
            obtain ⟨c, hc, hs⟩ := ih hc1 hc2 (by omega) (by omega)
            refine ⟨c, by simpa [hb1, hb2] using hc, ?_⟩
            rw [hs]
            omega

theorem base_derived {t : TypeDecl} {b : Str} (h : t.DerivedFrom b) : t.base = b := by
  unfold TypeDecl.base
  rcases h with h | h <;> rw [h]

theorem base_plain {t : TypeDecl} (h : t.Plain) : t.base = [] := by
  unfold TypeDecl.base
  rw [h]

theorem name_unique {l : List TypeDecl} (hnd : (l.map (·.name)).Nodup) {a b : TypeDecl} (ha : a ∈ l) (hb : b ∈ l)
    (h : a.name = b.name) : a = b := by
  induction l with
  | nil => simp at ha
  | cons x l ih =>
    simp only [List.map_cons, List.nodup_cons] at hnd
    rcases List.mem_cons.1 ha with ha | ha <;> rcases List.mem_cons.1 hb with hb | hb
    · rw [ha, hb]
    · exact absurd (List.mem_map.2 ⟨b, hb, by rw [← h, ha]⟩) hnd.1
    · exact absurd (List.mem_map.2 ⟨a, ha, by rw [h, hb]⟩) hnd.1
    · exact ih hnd.2 ha hb

theorem weightOf_mem {l : List TypeDecl} {n : Nat} {a : Str} {v : Nat × Str} (h : weightOf (weightList n l) a = .ok v) :
    ∃ l1 t l2, l = l1 ++ t :: l2 ∧ t.name = a := by
  unfold weightOf at h
  split at h
  · rename_i w hw
    have h1 := List.find?_some hw
    have h2 := List.mem_of_find?_eq_some hw
    have hmem : ∀ (l : List TypeDecl) (n : Nat), w ∈ weightList n l → ∃ t ∈ l, t.name = w.1 := by
      intro l
      induction l with
      | nil => intro n h; simp [weightList] at h
      | cons u l ih =>
        intro n h
        unfold weightList at h
        rcases List.mem_append.1 h with h | h
        · obtain ⟨t, ht, e⟩ := ih _ h
          exact ⟨t, by simp [ht], e⟩
        · simp only [List.mem_singleton] at h
          exact ⟨u, by simp, by rw [h]⟩
    obtain ⟨t, ht, e⟩ := hmem l n h2
    obtain ⟨l1, l2, he⟩ := List.append_of_mem ht
    exact ⟨l1, t, l2, he, by rw [e]; simpa using h1⟩
  · cases h

/-- C77: types derived from types of the same schema, named without prefix, as deep as there is room for nested calls:
they are put into an order in which every type comes after the one it is derived from, and types that are not derived
stay in order. The names differ and are neither empty nor contain colons; `rank` shows that derivation is not circular. -/
theorem C77_bases_first (n : Nat) (l : List TypeDecl) (rank : Str → Nat) (hnd : (l.map (·.name)).Nodup)
    (hname : ∀ t ∈ l, t.name ≠ [] ∧ ':' ∉ t.name)
    (hbase : ∀ t ∈ l, t.Plain ∨ ∃ b ∈ l, t.DerivedFrom b.name ∧ rank b.name < rank t.name) (hn : ∀ t ∈ l, rank t.name < n) :
    ∃ l', reorderTypes n l = .ok l' ∧ l'.Perm l ∧ (∀ t ∈ l, ∀ b ∈ l, t.DerivedFrom b.name → Before l' b t) ∧
      ∀ a b, a.Plain → b.Plain → Before l a b → Before l' a b := by
  have hcontent : ∀ t ∈ l, t.content ≠ .neither := by
    intro t ht h
    rcases hbase t ht with h' | ⟨b, _, h' | h', _⟩
    · unfold TypeDecl.Plain at h'; rw [h] at h'; cases h'
    · rw [h] at h'; cases h'
    · rw [h] at h'; cases h'
  have hw := weighTypes_eq hcontent 0 none []
  rw [List.append_nil] at hw
  have find : ∀ {l1 t l2}, l = l1 ++ t :: l2 → weightOf (weightList 0 l) t.name = .ok (l1.length, t.base) := by
    intro l1 t l2 he
    have := weightList_find hnd 0 he
    simpa using this
  have chains : ∀ r, ∀ t ∈ l, rank t.name ≤ r → ∃ i k, Chain (weightList 0 l) t.name i k ∧ k ≤ rank t.name := by
    intro r
    induction r with
    | zero =>
      intro t ht hr
      obtain ⟨l1, l2, he⟩ := List.append_of_mem ht
      rcases hbase t ht with h | ⟨b, _, _, h⟩
      · exact ⟨_, 0, .root (base_plain h ▸ find he), by omega⟩
      · omega
    | succ r ih =>
      intro t ht hr
      obtain ⟨l1, l2, he⟩ := List.append_of_mem ht
      rcases hbase t ht with h | ⟨b, hb, hd, h⟩
      · exact ⟨_, 0, .root (base_plain h ▸ find he), by omega⟩
      · obtain ⟨i, k, hc, hk⟩ := ih b hb (by omega)
        exact ⟨i, k + 1, .step (base_derived hd ▸ find he) (hname b hb).1 hc, by omega⟩
  have chain : ∀ t ∈ l, ∃ p : Nat × Nat, Chain (weightList 0 l) t.name p.1 p.2 ∧ p.2 < n := by
    intro t ht
    obtain ⟨i, k, hc, hk⟩ := chains _ t ht (Nat.le_refl _)
    have := hn t ht
    exact ⟨(i, k), hc, by simp only; omega⟩
  have : ∃ key : TypeDecl → Nat × Nat, ∀ t ∈ l, Chain (weightList 0 l) t.name (key t).1 (key t).2 ∧ (key t).2 < n := by
    refine ⟨fun t => if h : t ∈ l then (chain t h).choose else (0, 0), fun t ht => ?_⟩
    simp only [dif_pos ht]
    exact (chain t ht).choose_spec
  obtain ⟨key, hkey⟩ := this
  let r : TypeDecl → TypeDecl → Bool := fun a b =>
    decide ((key a).1 < (key b).1 ∨ ((key a).1 = (key b).1 ∧ (key a).2 < (key b).2))
  have hcmp : ∀ x ∈ [] ++ l, ∀ y ∈ [] ++ l,
      ((cmpTypes (weightList 0 l) n x.name y.name).map fun c => decide (c < 0)) = .ok (r x y) := by
    intro x hx y hy
    obtain ⟨c, hc, hs⟩ := cmp_chain (w := weightList 0 l) (n := n)
      (by
        intro a i b h
        obtain ⟨l1, t, l2, he, rfl⟩ := weightOf_mem h
        rw [find he] at h
        injection h with h
        injection h with _ h
        subst h
        have ht : t ∈ l := by rw [he]; simp
        rcases hbase t ht with h | ⟨b, hb, hd, _⟩
        · rw [base_plain h]; simp
        · rw [base_derived hd]; exact (hname b hb).2)
      (by
        intro v h
        obtain ⟨l1, t, l2, he, e⟩ := weightOf_mem h
        exact (hname t (by rw [he]; simp)).1 e)
      (by
        intro a b i x y h1 h2
        obtain ⟨l1, t, l2, he, rfl⟩ := weightOf_mem h1
        obtain ⟨m1, u, m2, he', rfl⟩ := weightOf_mem h2
        rw [find he] at h1
        rw [find he'] at h2
        injection h1 with h1
        injection h1 with h1 _
        injection h2 with h2
        injection h2 with h2 _
        have := List.append_inj (he.symm.trans he') (by omega)
        injection this.2 with h _
        rw [h])
      (hkey x (by simpa using hx)).1 (hkey y (by simpa using hy)).1 (hkey x (by simpa using hx)).2 (hkey y (by simpa using hy)).2
    rw [hc]
    show Except.ok (decide (c < 0)) = _
    congr 1
    exact decide_eq_decide.2 hs
  obtain ⟨l', e, p, s⟩ := listSort_ok (l := l) (acc := []) hcmp
    (by intro x y z h1 h2; simp only [r, decide_eq_true_eq, decide_eq_false_iff_not] at h1 h2 ⊢; omega)
    (by intro x y h1; simp only [r, decide_eq_true_eq, decide_eq_false_iff_not] at h1 ⊢; omega) List.Pairwise.nil
  refine ⟨l', ?_, p, ?_, ?_⟩
  · unfold reorderTypes
    rw [hw]
    exact e
  · intro t ht b hb hd
    have hlt : r b t = true := by
      obtain ⟨l1, l2, he⟩ := List.append_of_mem ht
      have := (hkey t ht).1.unique (.step (base_derived hd ▸ find he) (hname b hb).1 (hkey b hb).1)
      simp only [r, decide_eq_true_eq]
      omega
    refine before_sorted s (p.symm.subset (by simpa using hb)) (p.symm.subset (by simpa using ht)) ?_ hlt
    rintro rfl
    simp [r] at hlt
  · rintro a b ha hb ⟨l1, l2, l3, he⟩
    have h1 := find he
    have he' : l = (l1 ++ a :: l2) ++ b :: l3 := by rw [he]; simp
    have h2 := find he'
    have hal : a ∈ l := by rw [he]; simp
    have hbl : b ∈ l := by rw [he]; simp
    have e1 := (hkey a hal).1.unique (.root (base_plain ha ▸ h1))
    have e2 := (hkey b hbl).1.unique (.root (base_plain hb ▸ h2))
    have hlt : r a b = true := by
      simp only [r, decide_eq_true_eq, e1.1, e2.1]
      simp
    refine before_sorted s (p.symm.subset (by simpa using hal)) (p.symm.subset (by simpa using hbl)) ?_ hlt
    rintro rfl
    simp [r] at hlt

theorem sort_classes {l pre suf : List TypeDecl} {lt : TypeDecl → TypeDecl → Except Exn Bool} (he : l = pre ++ suf)
    (h1 : ∀ a b, a.Plain → b.Plain → Before l a b → lt b a = .ok false)
    (h2 : ∀ a ∈ l, ∀ b ∈ l, a.Plain → ¬ b.Plain → lt a b = .ok true)
    (h3 : ∀ a ∈ l, ∀ b ∈ l, ¬ a.Plain → lt a b = .ok false) :
    listSort lt (pre.filter (fun t => decide t.Plain) ++ pre.filter (fun t => decide ¬ t.Plain)) suf =
      .ok (l.filter (fun t => decide t.Plain) ++ l.filter (fun t => decide ¬ t.Plain)) := by
  induction suf generalizing pre with
  | nil => rw [he]; simp [listSort]
  | cons x suf ih =>
    have hx : x ∈ l := by rw [he]; simp
    have after : ∀ {P D : List TypeDecl}, (∀ y ∈ P, lt x y = .ok false) → listInsert lt x (P ++ D) = (listInsert lt x D).map (P ++ ·) := by
      intro P D h
      induction P with
      | nil => rw [List.nil_append]; cases listInsert lt x D <;> rfl
      | cons y P ih =>
        rw [List.cons_append, listInsert, h y (by simp)]
        simp only [Except.bind]
        rw [if_neg (by simp), ih fun z hz => h z (by simp [hz])]
        cases listInsert lt x D <;> rfl
    have ih' := ih (pre := pre ++ [x]) (by rw [he]; simp)
    rw [List.filter_append, List.filter_append] at ih'
    have hmem : ∀ {q : TypeDecl → Bool} {y}, y ∈ pre.filter q → y ∈ pre ∧ y ∈ l ∧ q y = true := by
      intro q y hy
      rw [List.mem_filter] at hy
      exact ⟨hy.1, by rw [he]; simp [hy.1], hy.2⟩
    by_cases hp : x.Plain
    · rw [listSort, after]
      · have : listInsert lt x (pre.filter (fun t => decide ¬ t.Plain)) = .ok (x :: pre.filter (fun t => decide ¬ t.Plain)) := by
          cases hD : pre.filter (fun t => decide ¬ t.Plain) with
          | nil => rfl
          | cons y D =>
            have hy : y ∈ pre.filter (fun t => decide ¬ t.Plain) := by rw [hD]; simp
            obtain ⟨_, hyl, hq⟩ := hmem hy
            rw [listInsert, h2 x hx y hyl hp (by simpa using hq)]
            rfl
        rw [this]
        simp only [Except.map, Except.bind]
        rw [← ih']
        simp [hp]
      · intro y hy
        obtain ⟨hyp, _, hq⟩ := hmem hy
        refine h1 y x (by simpa using hq) hp ?_
        obtain ⟨a, b, rfl⟩ := List.append_of_mem hyp
        exact ⟨a, b, suf, by rw [he]; simp⟩
    · rw [listSort, ← List.append_nil (_ ++ pre.filter (fun t => decide ¬ t.Plain)), after]
      · simp only [listInsert, Except.map, Except.bind]
        rw [← ih']
        simp [hp]
      · intro y hy
        rcases List.mem_append.1 hy with hy | hy
        · exact h3 x hx y (hmem hy).2.1 hp
        · exact h3 x hx y (hmem hy).2.1 hp

/-- C77: types derived from types named with a prefix are not put into order: first come the types that are not derived,
then the derived ones, each in the order they had. -/
theorem C77_prefixed (n : Nat) (l : List TypeDecl) (hnd : (l.map (·.name)).Nodup) (hname : ∀ t ∈ l, t.name ≠ [])
    (hbase : ∀ t ∈ l, t.Plain ∨ ∃ b, t.DerivedFrom b ∧ ':' ∈ b) :
    reorderTypes (n + 1) l = .ok (l.filter (fun t => decide t.Plain) ++ l.filter (fun t => decide ¬ t.Plain)) := by
  have hcontent : ∀ t ∈ l, t.content ≠ .neither := by
    intro t ht h
    rcases hbase t ht with h' | ⟨b, h' | h', _⟩
    · unfold TypeDecl.Plain at h'; rw [h] at h'; cases h'
    · rw [h] at h'; cases h'
    · rw [h] at h'; cases h'
  have hw := weighTypes_eq hcontent 0 none []
  rw [List.append_nil] at hw
  have find : ∀ {l1 t l2}, l = l1 ++ t :: l2 → weightOf (weightList 0 l) t.name = .ok (l1.length, t.base) := by
    intro l1 t l2 he
    have := weightList_find hnd 0 he
    simpa using this
  have derived : ∀ t ∈ l, ¬ t.Plain → ':' ∈ t.base := by
    intro t ht hp
    rcases hbase t ht with h | ⟨b, hd, hb⟩
    · exact absurd h hp
    · rw [base_derived hd]; exact hb
  unfold reorderTypes
  rw [hw]
  refine sort_classes (pre := []) rfl ?_ ?_ ?_
  · rintro a b ha hb ⟨l1, l2, l3, he⟩
    have he' : l = (l1 ++ a :: l2) ++ b :: l3 := by rw [he]; simp
    have f1 := find he
    have f2 := find he'
    rw [base_plain ha] at f1
    rw [base_plain hb] at f2
    unfold cmpTypes
    rw [f1, f2]
    simp [Except.bind, Except.map]
    omega
  · intro a ha b hb hpa hpb
    obtain ⟨l1, l2, he⟩ := List.append_of_mem ha
    obtain ⟨m1, m2, he'⟩ := List.append_of_mem hb
    have f1 := find he
    have f2 := find he'
    rw [base_plain hpa] at f1
    have hcol := derived b hb hpb
    have hne : b.base ≠ [] := by intro e; rw [e] at hcol; simp at hcol
    unfold cmpTypes
    rw [f1, f2]
    simp only [Except.bind]
    rw [if_neg (by simp [hne]), if_neg (by simp [hname b hb]), if_pos (.inr hcol)]
    rfl
  · intro a ha b hb hpa
    obtain ⟨l1, l2, he⟩ := List.append_of_mem ha
    obtain ⟨m1, m2, he'⟩ := List.append_of_mem hb
    have f1 := find he
    have f2 := find he'
    have hcol := derived a ha hpa
    have hne : a.base ≠ [] := by intro e; rw [e] at hcol; simp at hcol
    unfold cmpTypes
    rw [f1, f2]
    simp only [Except.bind]
    rw [if_neg (by simp [hne]), if_pos (.inr hcol)]
    rfl

/-- C77: in particular, of a type, one derived from it and one derived from that, with prefixes and listed backwards, the
last one stays before the one it is derived from. -/
theorem C77_grandchild (n : Nat) (p a b c : Str) (h : a ≠ b ∧ a ≠ c ∧ b ≠ c) (hne : a ≠ [] ∧ b ≠ [] ∧ c ≠ []) :
    reorderTypes (n + 1) [⟨c, .extension (p ++ ':' :: b), 3⟩, ⟨b, .extension (p ++ ':' :: a), 2⟩, ⟨a, .none, 1⟩] =
      .ok [⟨a, .none, 1⟩, ⟨c, .extension (p ++ ':' :: b), 3⟩, ⟨b, .extension (p ++ ':' :: a), 2⟩] := by
  rw [C77_prefixed]
  · simp [TypeDecl.Plain]
  · simp [Ne.symm h.1, Ne.symm h.2.1, Ne.symm h.2.2]
  · simp only [List.mem_cons, List.not_mem_nil, or_false, forall_eq_or_imp, forall_eq]
    exact ⟨hne.2.2, hne.2.1, hne.1⟩
  · simp only [List.mem_cons, List.not_mem_nil, or_false, forall_eq_or_imp, forall_eq]
    exact ⟨.inr ⟨_, .inl rfl, by simp⟩, .inr ⟨_, .inl rfl, by simp⟩, .inl rfl⟩

/-- C77: a base that is neither prefixed nor a type of the schema is a KeyError as soon as the type is compared. -/
theorem C77_missing (n : Nat) (a t x : Str) (h : a ≠ t ∧ x ≠ a ∧ x ≠ t) (hne : t ≠ [] ∧ x ≠ []) (hcol : ':' ∉ x) :
    reorderTypes (n + 2) [⟨a, .none, 1⟩, ⟨t, .extension x, 2⟩] = .error .keyError := by
  have e1 : weightOf [(t, 1, x), (a, 0, [])] t = .ok (1, x) := by simp [weightOf]
  have e2 : weightOf [(t, 1, x), (a, 0, [])] a = .ok (0, []) := by simp [weightOf, Ne.symm h.1]
  have e3 : weightOf [(t, 1, x), (a, 0, [])] x = .error .keyError := by
    simp [weightOf, Ne.symm h.2.1, Ne.symm h.2.2]
  have ec : cmpTypes [(t, 1, x), (a, 0, [])] (n + 2) t a = .error .keyError := by
    unfold cmpTypes
    rw [e1, e2]
    simp only [Except.bind]
    rw [if_neg (by simp [hne.2]), if_neg (by simp [Ne.symm h.2.1, hcol]), if_neg (by simp [hne.1]), if_neg hne.2, if_pos trivial]
    unfold cmpTypes
    rw [e3]
    rfl
  simp only [reorderTypes, weighTypes, boundBase, Except.bind, listSort, listInsert]
  rw [ec]
  rfl

/-- C77: a content that is neither an extension nor a restriction, in the first type, reads an unbound variable. -/
theorem C77_neither (n : Nat) (t : TypeDecl) (l : List TypeDecl) (h : t.content = .neither) :
    reorderTypes n (t :: l) = .error .nameError := by
  simp [reorderTypes, weighTypes, h, boundBase, Except.bind]

theorem listInsert_map {α β : Type} (f : α → β) (lt : β → β → Except Exn Bool) (x : α) (l : List α) :
    (listInsert (fun a b => lt (f a) (f b)) x l).map (List.map f) = listInsert lt (f x) (l.map f) := by
  induction l with
  | nil => rfl
  | cons y l ih =>
    simp only [listInsert, List.map_cons]
    cases lt (f x) (f y) with
    | error e => rfl
    | ok c =>
      cases c with
      | true => rfl
      | false =>
        rw [show ∀ z : Except Exn (List β), (Except.ok false).bind (fun c => if c then .ok (f x :: f y :: l.map f) else z) = z from
          fun _ => rfl, ← ih]
        show (Except.map (y :: ·) (listInsert _ x l)).map _ = _
        cases listInsert (fun a b => lt (f a) (f b)) x l <;> rfl

theorem listSort_map {α β : Type} (f : α → β) (lt : β → β → Except Exn Bool) (acc l : List α) :
    (listSort (fun a b => lt (f a) (f b)) acc l).map (List.map f) = listSort lt (acc.map f) (l.map f) := by
  induction l generalizing acc with
  | nil => rfl
  | cons x l ih =>
    simp only [listSort, List.map_cons, ← listInsert_map]
    cases listInsert (fun a b => lt (f a) (f b)) x acc with
    | error e => rfl
    | ok acc' => exact ih acc'

theorem weigh_inherit (n : Nat) (before : TypeContent) (base : Str) (hb : boundBase none before = some base) (w : Weights) (l : List TypeDecl) :
    weighTypes n (some base) w (inheritContent before l) = weighTypes n (some base) w l := by
  have hn : before ≠ .neither := by rintro rfl; cases hb
  have hb' : ∀ o, boundBase o before = some base := by
    intro o
    cases before <;> first | exact absurd rfl hn | exact hb
  induction l generalizing n before base w with
  | nil => rfl
  | cons t l ih =>
    by_cases ht : t.content = .neither
    · rw [inheritContent, if_pos ht]
      unfold weighTypes
      rw [hb', ht]
      exact ih _ _ _ hb _ hn hb'
    · simp only [inheritContent, if_neg ht, weighTypes]
      cases hc : t.content with
      | neither => exact absurd hc ht
      | none => simp only [boundBase]; exact ih _ _ _ rfl _ (by simp) (fun _ => rfl)
      | extension b => simp only [boundBase]; exact ih _ _ _ rfl _ (by simp) (fun _ => rfl)
      | restriction b => simp only [boundBase]; exact ih _ _ _ rfl _ (by simp) (fun _ => rfl)

theorem inherit_same (before : TypeContent) (l : List TypeDecl) :
    (inheritContent before l).map (fun t => (t.name, t.doc)) = l.map fun t => (t.name, t.doc) := by
  induction l generalizing before with
  | nil => rfl
  | cons t l ih =>
    unfold inheritContent
    split <;> simp [ih]

/-- C77: a type whose content has neither extension nor restriction is placed as if it had the content of the type listed
before it. -/
theorem C77_neither_later (n : Nat) (t : TypeDecl) (l : List TypeDecl) (h : t.content ≠ .neither) :
    (reorderTypes n (t :: l)).map (List.map fun t => (t.name, t.doc)) =
    (reorderTypes n (t :: inheritContent t.content l)).map (List.map fun t => (t.name, t.doc)) := by
  obtain ⟨b, hb⟩ : ∃ b, boundBase none t.content = some b := by
    cases hc : t.content <;> first | exact absurd hc h | exact ⟨_, rfl⟩
  have hw : weighTypes 0 none [] (t :: inheritContent t.content l) = weighTypes 0 none [] (t :: l) := by
    simp only [weighTypes, hb]
    exact weigh_inherit _ _ _ hb _ _
  unfold reorderTypes
  rw [hw]
  cases weighTypes 0 none [] (t :: l) with
  | error e => rfl
  | ok w =>
    have key := fun l => listSort_map (fun t : TypeDecl => (t.name, t.doc))
      (fun a b => (cmpTypes w n a.1 b.1).map fun c => decide (c < 0)) [] l
    refine (key (t :: l)).trans (Eq.trans ?_ (key _).symm)
    simp only [List.map_cons, inherit_same]

/-- The second type is taken for an extension of `A`, and moved behind it. -/
example : reorderTypes 5 [⟨py"C", .extension py"A", 0⟩, ⟨py"B", .neither, 0⟩, ⟨py"A", .none, 0⟩] =
    .ok [⟨py"A", .none, 0⟩, ⟨py"C", .extension py"A", 0⟩, ⟨py"B", .neither, 0⟩] := by decide +kernel

/-- Three levels of derivation and another plain type, listed backwards. -/
example : reorderTypes 5 [⟨py"D", .extension py"C", 0⟩, ⟨py"C", .restriction py"A", 0⟩, ⟨py"B", .none, 0⟩, ⟨py"A", .none, 0⟩,
      ⟨py"E", .extension py"B", 0⟩] =
    .ok [⟨py"B", .none, 0⟩, ⟨py"E", .extension py"B", 0⟩, ⟨py"A", .none, 0⟩, ⟨py"C", .restriction py"A", 0⟩,
      ⟨py"D", .extension py"C", 0⟩] := by decide +kernel

end Soapfish
