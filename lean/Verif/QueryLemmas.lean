import Verif.Spec.Dispatch
import Verif.DispatchLemmas
/-
Lemmas about splitting texts and query strings.
-/
namespace Soapfish

theorem splitOn_ne {sep : Char} (s : Str) : splitOn sep s ≠ [] := by
  cases s with
  | nil => simp [splitOn]
  | cons c cs =>
    unfold splitOn
    split
    · simp
    · split <;> simp

theorem splitOn_sep {sep : Char} (s : Str) : ∀ w ∈ splitOn sep s, sep ∉ w := by
  induction s with
  | nil => simp [splitOn]
  | cons c cs ih =>
    unfold splitOn
    by_cases hc : c = sep
    · rw [if_pos hc]
      intro w hw
      rcases List.mem_cons.1 hw with rfl | hw
      · simp
      · exact ih w hw
    · rw [if_neg hc]
      split
      · next w ws e =>
        rw [e] at ih
        intro w' hw
        rcases List.mem_cons.1 hw with rfl | hw
        · have := ih w (by simp)
          simp only [List.mem_cons, not_or]
          exact ⟨fun h => hc h.symm, this⟩
        · exact ih w' (by simp [hw])
      · next e => exact absurd e (splitOn_ne cs)

theorem splitOn_join {sep : Char} (s : Str) : [sep].intercalate (splitOn sep s) = s := by
  induction s with
  | nil => simp [splitOn, List.intercalate]
  | cons c cs ih =>
    unfold splitOn
    by_cases hc : c = sep
    · rw [if_pos hc]
      cases e : splitOn sep cs with
      | nil => exact absurd e (splitOn_ne cs)
      | cons w ws =>
        rw [e] at ih
        simp only [List.intercalate, List.intersperse, List.flatten_cons, List.nil_append] at ih ⊢
        rw [ih, hc]; rfl
    · rw [if_neg hc]
      cases e : splitOn sep cs with
      | nil => exact absurd e (splitOn_ne cs)
      | cons w ws =>
        rw [e] at ih
        cases ws with
        | nil => simp [List.intercalate] at ih ⊢; exact ih
        | cons w2 ws =>
          simp only [List.intercalate, List.intersperse, List.flatten_cons, List.cons_append] at ih ⊢
          rw [ih]

theorem splitOn_plain {sep : Char} {w : Str} (h : sep ∉ w) : splitOn sep w = [w] := by
  induction w with
  | nil => rfl
  | cons c cs ih =>
    simp only [List.mem_cons, not_or] at h
    unfold splitOn
    rw [if_neg (fun e => h.1 e.symm), ih h.2]

theorem splitOn_cons {sep : Char} {w rest : Str} (h : sep ∉ w) :
    splitOn sep (w ++ sep :: rest) = w :: splitOn sep rest := by
  induction w with
  | nil => simp [splitOn]
  | cons c cs ih =>
    simp only [List.mem_cons, not_or] at h
    have : ∀ t, splitOn sep (c :: t) = if c = sep then [] :: splitOn sep t
        else match splitOn sep t with | w :: ws => (c :: w) :: ws | [] => [[c]] := fun t => rfl
    rw [List.cons_append, this, if_neg (fun e => h.1 e.symm), ih h.2]

theorem joined_iff {sep : Char} {items : List Str} {s : Str} : Joined sep items s ↔ items = splitOn sep s := by
  constructor
  · rintro ⟨h1, h2, rfl⟩
    induction items with
    | nil => exact absurd rfl h1
    | cons w ws ih =>
      cases ws with
      | nil => simp [List.intercalate]; rw [splitOn_plain (h2 w (by simp))]
      | cons w2 ws =>
        have : [sep].intercalate (w :: w2 :: ws) = w ++ sep :: [sep].intercalate (w2 :: ws) := by
          simp [List.intercalate, List.intersperse]
        rw [this, splitOn_cons (h2 w (by simp)), ← ih (by simp) (fun i hi => h2 i (by simp [hi]))]
  · rintro rfl
    exact ⟨splitOn_ne s, splitOn_sep s, splitOn_join s⟩

theorem partitionEq_plain {n : Str} (h : '=' ∉ n) : partitionEq n = (n, []) := by
  induction n with
  | nil => rfl
  | cons c cs ih =>
    simp only [List.mem_cons, not_or] at h
    unfold partitionEq
    rw [if_neg (fun e => h.1 e.symm), ih h.2]

theorem partitionEq_split {n v : Str} (h : '=' ∉ n) : partitionEq (n ++ '=' :: v) = (n, v) := by
  induction n with
  | nil => rfl
  | cons c cs ih =>
    simp only [List.mem_cons, not_or] at h
    rw [List.cons_append]
    unfold partitionEq
    rw [if_neg (fun e => h.1 e.symm), ih h.2]

theorem partitionEq_cases (item : Str) : ∃ name value, '=' ∉ name ∧
    ((item = name ∧ value = []) ∨ item = name ++ '=' :: value) ∧ partitionEq item = (name, value) := by
  induction item with
  | nil => exact ⟨[], [], by simp, .inl ⟨rfl, rfl⟩, rfl⟩
  | cons c cs ih =>
    by_cases hc : c = '='
    · subst hc
      exact ⟨[], cs, by simp, .inr rfl, by simp [partitionEq]⟩
    · obtain ⟨n, v, h1, h2, h3⟩ := ih
      refine ⟨c :: n, v, ?_, ?_, ?_⟩
      · simp only [List.mem_cons, not_or]; exact ⟨fun e => hc e.symm, h1⟩
      · rcases h2 with ⟨h2, h4⟩ | h2
        · exact .inl ⟨by rw [h2], h4⟩
        · exact .inr (by rw [h2]; rfl)
      · unfold partitionEq; rw [if_neg hc, h3]

theorem queryField_iff {item k v : Str} :
    QueryField item k v ↔ item ≠ [] ∧ unquotePlus (partitionEq item).1 = k ∧ unquotePlus (partitionEq item).2 = v := by
  constructor
  · rintro ⟨h1, n, w, h2, h3, h4, h5⟩
    refine ⟨h1, ?_⟩
    rcases h3 with ⟨rfl, rfl⟩ | rfl
    · rw [partitionEq_plain h2]; exact ⟨h4, h5⟩
    · rw [partitionEq_split h2]; exact ⟨h4, h5⟩
  · rintro ⟨h1, h2, h3⟩
    obtain ⟨n, w, h4, h5, h6⟩ := partitionEq_cases item
    rw [h6] at h2 h3
    exact ⟨h1, n, w, h4, h5, h2, h3⟩

/-- What `push` does to a dictionary. -/
theorem push_get {α} (d : Dict (List α)) (k : Str) (v : α) (k' : Str) :
    (d.push k v).get? k' = if k' = k then some ((d.get? k).getD [] ++ [v]) else d.get? k' := by
  unfold Dict.push
  by_cases h : k' = k
  · rw [if_pos h, h]
    cases hd : d.get? k with
    | none => simp [get_set_self]
    | some vs => simp [get_set_self]
  · rw [if_neg h]
    cases hd : d.get? k with
    | none => simp only [get_set_other _ _ _ _ h]
    | some vs => simp only [get_set_other _ _ _ _ h]

/-- The values collected for a name. -/
theorem foldl_push_get {α} (l : List (Str × α)) (d : Dict (List α)) (k : Str) :
    (l.foldl (fun d p => d.push p.1 p.2) d).get? k =
      if (l.filter (fun p => p.1 = k)).isEmpty then d.get? k
      else some ((d.get? k).getD [] ++ (l.filter (fun p => p.1 = k)).map (·.2)) := by
  induction l generalizing d with
  | nil => simp
  | cons p l ih =>
    rw [List.foldl_cons, ih]
    by_cases hp : p.1 = k
    · rw [List.filter_cons_of_pos (by simpa using hp), push_get, if_pos hp.symm]
      cases hl : (l.filter (fun p => p.1 = k)) with
      | nil => simp [hp]
      | cons a b => simp [hp]
    · rw [List.filter_cons_of_neg (by simpa using hp), push_get]
      simp only [if_neg (fun h : k = p.1 => hp h.symm)]

theorem parseQs_get (qs k : Str) : (parseQs qs).get? k =
    if ((parseQsl qs).filter (fun p => p.1 = k)).isEmpty then none
    else some (((parseQsl qs).filter (fun p => p.1 = k)).map (·.2)) := by
  unfold parseQs
  rw [foldl_push_get]
  simp [Dict.get?]

theorem mem_parseQsl {qs k v : Str} : (k, v) ∈ parseQsl qs ↔ ∃ item ∈ splitOn '&' qs, QueryField item k v := by
  unfold parseQsl
  simp only [List.mem_map, List.mem_filter, decide_eq_true_eq, Prod.mk.injEq, queryField_iff]
  constructor
  · rintro ⟨item, ⟨h1, h2⟩, h3, h4⟩; exact ⟨item, h1, h2, h3, h4⟩
  · rintro ⟨item, h1, h2, h3, h4⟩; exact ⟨item, ⟨h1, h2⟩, h3, h4⟩

/-- The keys of a parsed query string. -/
theorem mem_keys_parseQs (qs k : Str) : k ∈ (parseQs qs).keys ↔ HasKey qs k := by
  have h1 : k ∈ (parseQs qs).keys ↔ ∃ v, (parseQs qs).get? k = some v := (get_isSome_iff _ _).symm
  rw [h1, parseQs_get]
  have h2 : HasKey qs k ↔ ∃ v, (k, v) ∈ parseQsl qs := by
    constructor
    · rintro ⟨items, h1, item, h2, v, h3⟩
      rw [joined_iff] at h1; subst h1
      exact ⟨v, mem_parseQsl.2 ⟨item, h2, h3⟩⟩
    · rintro ⟨v, h⟩
      obtain ⟨item, h2, h3⟩ := mem_parseQsl.1 h
      exact ⟨_, joined_iff.2 rfl, item, h2, v, h3⟩
  rw [h2]
  constructor
  · rintro ⟨v, h⟩
    split at h
    · cases h
    · next he =>
      cases hl : (parseQsl qs).filter (fun p => p.1 = k) with
      | nil => rw [hl] at he; simp at he
      | cons p l =>
        have : p ∈ (parseQsl qs).filter (fun p => p.1 = k) := by rw [hl]; simp
        obtain ⟨h3, h4⟩ := List.mem_filter.1 this
        simp only [decide_eq_true_eq] at h4
        exact ⟨p.2, by rw [← h4]; exact h3⟩
  · rintro ⟨v, h⟩
    have : (k, v) ∈ (parseQsl qs).filter (fun p => p.1 = k) := List.mem_filter.2 ⟨h, by simp⟩
    cases hl : (parseQsl qs).filter (fun p => p.1 = k) with
    | nil => rw [hl] at this; cases this
    | cons p l => simp

/-- The first value of a name in a parsed query string. -/
theorem parseQs_first (qs k v : Str) :
    (∃ vs, (parseQs qs).get? k = some (v :: vs)) ↔ FirstValue qs k v := by
  have key : ∀ items : List Str,
      (∃ vs, ((((items.filter (· ≠ [])).map fun item =>
        (unquotePlus (partitionEq item).1, unquotePlus (partitionEq item).2)).filter (fun p => p.1 = k)).map (·.2))
          = v :: vs) ↔
      ∃ item, First (fun i => ∃ v, QueryField i k v) items item ∧ QueryField item k v := by
    intro items
    induction items with
    | nil =>
      constructor
      · rintro ⟨vs, h⟩; simp at h
      · rintro ⟨item, ⟨pre, post, h, _⟩, _⟩; simp at h
    | cons i items ih =>
      by_cases hi : ∃ w, QueryField i k w
      · obtain ⟨w, hw⟩ := hi
        obtain ⟨h1, h2, h3⟩ := queryField_iff.1 hw
        rw [List.filter_cons_of_pos (by simpa using h1), List.map_cons, List.filter_cons_of_pos (by simpa using h2),
          List.map_cons]
        have hf : First (fun i => ∃ v, QueryField i k v) (i :: items) i := ⟨[], items, rfl, ⟨w, hw⟩, by simp⟩
        constructor
        · rintro ⟨vs, h⟩
          injection h with h _
          refine ⟨i, hf, ?_⟩
          rw [← h, h3]; exact hw
        · rintro ⟨item, h4, h5⟩
          have := First.unique hf h4
          subst this
          obtain ⟨_, _, h6⟩ := queryField_iff.1 h5
          exact ⟨_, by rw [← h6]⟩
      · have : ((((i :: items).filter (· ≠ [])).map fun item =>
          (unquotePlus (partitionEq item).1, unquotePlus (partitionEq item).2)).filter (fun p => p.1 = k)) =
          ((((items).filter (· ≠ [])).map fun item =>
          (unquotePlus (partitionEq item).1, unquotePlus (partitionEq item).2)).filter (fun p => p.1 = k)) := by
          by_cases he : i = []
          · rw [List.filter_cons_of_neg (by simpa using he)]
          · rw [List.filter_cons_of_pos (by simpa using he), List.map_cons, List.filter_cons_of_neg]
            intro h
            simp only [decide_eq_true_eq] at h
            exact hi ⟨_, queryField_iff.2 ⟨he, h, rfl⟩⟩
        rw [this, ih]
        constructor
        · rintro ⟨item, ⟨pre, post, h1, h2, h3⟩, h4⟩
          refine ⟨item, ⟨i :: pre, post, by rw [h1]; rfl, h2, ?_⟩, h4⟩
          intro b hb
          rcases List.mem_cons.1 hb with rfl | hb
          · exact hi
          · exact h3 b hb
        · rintro ⟨item, ⟨pre, post, h1, h2, h3⟩, h4⟩
          cases pre with
          | nil =>
            injection h1 with h1 _
            subst h1
            exact absurd ⟨v, h4⟩ hi
          | cons p pre =>
            injection h1 with h5 h1
            exact ⟨item, ⟨pre, post, h1, h2, fun b hb => h3 b (by simp [hb])⟩, h4⟩
  constructor
  · rintro ⟨vs, h⟩
    rw [parseQs_get] at h
    split at h
    · cases h
    · injection h with h
      obtain ⟨item, h1, h2⟩ := (key _).1 ⟨vs, h⟩
      exact ⟨_, item, joined_iff.2 rfl, h1, h2⟩
  · rintro ⟨items, item, h1, h2, h3⟩
    rw [joined_iff] at h1; subst h1
    obtain ⟨vs, h⟩ := (key _).2 ⟨item, h2, h3⟩
    rw [parseQs_get]
    refine ⟨vs, ?_⟩
    rw [if_neg]
    · exact congrArg some h
    · intro he
      have : ((parseQsl qs).filter (fun p => p.1 = k)).map (·.2) = [] := by
        rw [List.isEmpty_iff.1 he]; rfl
      unfold parseQsl at this
      rw [h] at this
      cases this

end Soapfish
