import Verif.Spec.Schemas
import Verif.Spec.Dispatch
/-
Walking schemas (C57), element lookup (C58), methods (C59).
-/
namespace Soapfish

/-! ### C57: walking -/

section
variable {W : World} {β : Type} {cb : SchemaId → Except Exn β}

/-- What a walk adds to the dict: entries of schemas with property `R`, all of whose references are in the dict. -/
def Ext (W : World) (cb : SchemaId → Except Exn β) (R : SchemaId → Prop) (seen seen' : List (Option Str × β))
    (C : SchemaId → Prop) : Prop :=
  ∃ new, seen' = seen ++ new ∧ ((seen.map (·.1)).Nodup → (seen'.map (·.1)).Nodup) ∧
    (∀ p ∈ new, ∃ i, R i ∧ (W.schema i).location = p.1 ∧ cb i = .ok p.2 ∧
      ∀ j, Refers W i j → (W.schema j).location ∈ seen'.map (·.1)) ∧
    ∀ i, C i → (W.schema i).location ∈ seen'.map (·.1)

theorem Ext.refl {R C : SchemaId → Prop} {seen : List (Option Str × β)}
    (h : ∀ i, C i → (W.schema i).location ∈ seen.map (·.1)) : Ext W cb R seen seen C :=
  ⟨[], by simp, id, by simp, h⟩

theorem Ext.trans {R C1 C2 : SchemaId → Prop} {s m s' : List (Option Str × β)} (h1 : Ext W cb R s m C1)
    (h2 : Ext W cb R m s' C2) : Ext W cb R s s' (fun i => C1 i ∨ C2 i) := by
  obtain ⟨n1, rfl, a2, a3, a4⟩ := h1
  obtain ⟨n2, rfl, b2, b3, b4⟩ := h2
  have mono : ∀ l, l ∈ (s ++ n1).map (·.1) → l ∈ (s ++ n1 ++ n2).map (·.1) := by
    intro l hl
    rw [List.map_append]
    exact List.mem_append_left _ hl
  refine ⟨n1 ++ n2, by simp, fun h => b2 (a2 h), ?_, ?_⟩
  · intro p hp
    rcases List.mem_append.1 hp with hp | hp
    · obtain ⟨i, r1, r2, r3, r4⟩ := a3 p hp
      exact ⟨i, r1, r2, r3, fun j hj => mono _ (r4 j hj)⟩
    · exact b3 p hp
  · rintro i (hi | hi)
    · exact mono _ (a4 i hi)
    · exact b4 i hi

theorem Ext.mono {R R' C C' : SchemaId → Prop} {s s' : List (Option Str × β)} (h : Ext W cb R s s' C)
    (hR : ∀ i, R i → R' i) (hC : ∀ i, C' i → C i) : Ext W cb R' s s' C' := by
  obtain ⟨new, h1, h2, h3, h4⟩ := h
  refine ⟨new, h1, h2, ?_, fun i hi => h4 i (hC i hi)⟩
  intro p hp
  obtain ⟨i, r1, r⟩ := h3 p hp
  exact ⟨i, hR i r1, r⟩

theorem Ext.fold {α : Type} {R : SchemaId → Prop} {f : List (Option Str × β) → α → Except Exn (List (Option Str × β))}
    {C : α → SchemaId → Prop} {l : List α} (hf : ∀ a ∈ l, ∀ s s', f s a = .ok s' → Ext W cb R s s' (C a))
    {s s' : List (Option Str × β)} (h : foldE f s l = .ok s') : Ext W cb R s s' (fun i => ∃ a ∈ l, C a i) := by
  induction l generalizing s with
  | nil => injection h with h; subst h; exact .refl (by simp)
  | cons a l ih =>
    simp only [foldE, bind, Except.bind] at h
    cases h1 : f s a with
    | error e => rw [h1] at h; cases h
    | ok m =>
      rw [h1] at h
      refine (Ext.trans (hf a (by simp) s m h1) (ih (fun b hb => hf b (by simp [hb])) h)).mono (fun _ h => h) ?_
      rintro i ⟨b, hb, hi⟩
      rcases List.mem_cons.1 hb with rfl | hb
      · exact .inl hi
      · exact .inr ⟨b, hb, hi⟩

theorem mem_items {s i : SchemaId} : i ∈ W.items s ↔ Refers W s i := List.mem_append

theorem Reaches.subset {roots roots' : List SchemaId} (h : ∀ r ∈ roots', r ∈ roots ∨ Reaches W roots r) {i : SchemaId}
    (hi : Reaches W roots' i) : Reaches W roots i := by
  induction hi with
  | root hr h1 =>
    rcases h _ hr with h2 | h2
    · exact .root h2 h1
    · exact .next h2 h1
  | next _ h1 ih => exact .next ih h1

/-- One step of the inner loop. -/
theorem walk_step {n : Nat} {roots : List SchemaId} {r item : SchemaId} (hr : r ∈ roots) (hi : item ∈ W.items r)
    (ih : ∀ seen seen', walkSchemaTree W cb n [item] seen = .ok seen' →
      Ext W cb (Reaches W [item]) seen seen' (fun i => ∃ s ∈ [item], Refers W s i))
    {seen seen' : List (Option Str × β)}
    (h : (if (seen.map (·.1)).contains (W.schema item).location then .ok seen
      else do
        let v ← cb item
        walkSchemaTree W cb n [item] (seen ++ [((W.schema item).location, v)])) = .ok seen') :
    Ext W cb (Reaches W roots) seen seen' (fun i => i = item) := by
  have hreach : Reaches W roots item := .root hr (mem_items.1 hi)
  split at h
  · rename_i hc
    injection h with h; subst h
    refine .refl ?_
    rintro i rfl
    simpa [List.contains_iff_mem] using hc
  · rename_i hc
    simp only [bind, Except.bind] at h
    cases h1 : cb item with
    | error e => rw [h1] at h; cases h
    | ok v =>
      rw [h1] at h
      obtain ⟨new, rfl, h2, h3, h4⟩ := ih _ _ h
      refine ⟨((W.schema item).location, v) :: new, by simp, fun hn => h2 ?_, ?_, ?_⟩
      · rw [List.map_append, List.nodup_append]
        refine ⟨hn, by simp, ?_⟩
        intro a ha b hb hab
        simp only [List.map_cons, List.map_nil, List.mem_singleton] at hb
        subst hab hb
        exact hc (by simpa [List.contains_iff_mem] using ha)
      · intro p hp
        rcases List.mem_cons.1 hp with rfl | hp
        · exact ⟨item, hreach, rfl, h1, fun j hj => h4 j ⟨item, by simp, hj⟩⟩
        · obtain ⟨i, r1, r⟩ := h3 p hp
          exact ⟨i, r1.subset (fun r hr => by simp at hr; subst hr; exact .inr hreach), r⟩
      · rintro i rfl
        simp

theorem walk_ext (n : Nat) : ∀ (roots : List SchemaId) (seen seen' : List (Option Str × β)),
    walkSchemaTree W cb n roots seen = .ok seen' →
    Ext W cb (Reaches W roots) seen seen' (fun i => ∃ s ∈ roots, Refers W s i) := by
  induction n with
  | zero => intro roots seen seen' h; cases h
  | succ n ih =>
    intro roots seen seen' h
    rw [walkSchemaTree] at h
    refine Ext.fold (C := fun s i => Refers W s i) ?_ h
    intro r hr s s' h
    refine (Ext.fold (C := fun item i => i = item) ?_ h).mono (fun _ h => h) ?_
    · intro item hi s s' h
      exact walk_step hr hi (ih [item]) h
    · intro i hi
      exact ⟨i, mem_items.2 hi, rfl⟩

/-- **C57 (once).** No location is visited twice. -/
theorem C57_once (W : World) (cb : SchemaId → Except Exn β) (n : Nat) (roots : List SchemaId)
    (seen : List (Option Str × β)) (h : walkSchemaTree W cb n roots [] = .ok seen) : (seen.map (·.1)).Nodup := by
  obtain ⟨_, _, h2, _⟩ := walk_ext n roots [] seen h
  exact h2 (by simp)

/-- **C57 (only).** Every visited schema is reachable, and the value is the callback's. -/
theorem C57_only (W : World) (cb : SchemaId → Except Exn β) (n : Nat) (roots : List SchemaId)
    (seen : List (Option Str × β)) (h : walkSchemaTree W cb n roots [] = .ok seen) :
    ∀ l v, (l, v) ∈ seen → ∃ i, Reaches W roots i ∧ (W.schema i).location = l ∧ cb i = .ok v := by
  obtain ⟨new, rfl, _, h3, _⟩ := walk_ext n roots [] seen h
  intro l v hv
  obtain ⟨i, r1, r2, r3, _⟩ := h3 (l, v) (by simpa using hv)
  exact ⟨i, r1, r2, r3⟩

/-- **C57 (all).** If locations identify the reachable schemas, all of them are visited. -/
theorem C57_all (W : World) (cb : SchemaId → Except Exn β) (n : Nat) (roots : List SchemaId)
    (seen : List (Option Str × β)) (h : walkSchemaTree W cb n roots [] = .ok seen)
    (hinj : ∀ i j, Reaches W roots i → Reaches W roots j → (W.schema i).location = (W.schema j).location → i = j)
    (i : SchemaId) (hi : Reaches W roots i) : ∃ v, ((W.schema i).location, v) ∈ seen ∧ cb i = .ok v := by
  obtain ⟨new, rfl, _, h3, h4⟩ := walk_ext n roots [] seen h
  have key : ∀ j, Reaches W roots j → (W.schema j).location ∈ seen.map (·.1) →
      ∃ v, ((W.schema j).location, v) ∈ seen ∧ cb j = .ok v ∧
        ∀ k, Refers W j k → (W.schema k).location ∈ seen.map (·.1) := by
    intro j hj hl
    obtain ⟨p, hp, hpl⟩ := List.mem_map.1 hl
    obtain ⟨i', r1, r2, r3, r4⟩ := h3 p (by simpa using hp)
    have := hinj i' j r1 hj (r2.trans hpl)
    subst this
    refine ⟨p.2, ?_, r3, r4⟩
    rw [← hpl]
    exact hp
  have hloc : (W.schema i).location ∈ seen.map (·.1) := by
    induction hi with
    | root hr h1 => exact h4 _ ⟨_, hr, h1⟩
    | next hi h1 ih =>
      obtain ⟨_, _, _, h5⟩ := key _ hi ih
      exact h5 _ h1
  obtain ⟨v, h5, h6, _⟩ := key i hi hloc
  exact ⟨v, h5, h6⟩

/-- Locations not in the dict yet. -/
def remaining (locs : List (Option Str)) (seen : List (Option Str × β)) : Nat :=
  (locs.filter fun l => !(seen.map (·.1)).contains l).length

theorem filter_le {α : Type} {p q : α → Bool} (h : ∀ a, q a = true → p a = true) (l : List α) :
    (l.filter q).length ≤ (l.filter p).length := by
  induction l with
  | nil => exact Nat.le_refl _
  | cons a l ih =>
    by_cases hq : q a = true
    · rw [List.filter_cons_of_pos hq, List.filter_cons_of_pos (h a hq)]
      exact Nat.succ_le_succ ih
    · rw [List.filter_cons_of_neg hq]
      by_cases hp : p a = true
      · rw [List.filter_cons_of_pos hp]; exact Nat.le_succ_of_le ih
      · rw [List.filter_cons_of_neg hp]; exact ih

theorem filter_lt {α : Type} {p q : α → Bool} (h : ∀ a, q a = true → p a = true) {l : List α} {a : α} (ha : a ∈ l)
    (hp : p a = true) (hq : ¬ q a = true) : (l.filter q).length < (l.filter p).length := by
  induction l with
  | nil => cases ha
  | cons b l ih =>
    rcases List.mem_cons.1 ha with rfl | ha
    · rw [List.filter_cons_of_pos hp, List.filter_cons_of_neg hq]
      exact Nat.lt_succ_of_le (filter_le h l)
    · by_cases hqb : q b = true
      · rw [List.filter_cons_of_pos hqb, List.filter_cons_of_pos (h b hqb)]
        exact Nat.succ_lt_succ (ih ha)
      · rw [List.filter_cons_of_neg hqb]
        by_cases hpb : p b = true
        · rw [List.filter_cons_of_pos hpb]; exact Nat.lt_succ_of_lt (ih ha)
        · rw [List.filter_cons_of_neg hpb]; exact ih ha

theorem remaining_le (locs : List (Option Str)) (seen new : List (Option Str × β)) :
    remaining locs (seen ++ new) ≤ remaining locs seen := by
  refine filter_le ?_ _
  intro l hl
  simp only [Bool.not_eq_true'] at hl ⊢
  rw [← Bool.not_eq_true, List.contains_iff_mem] at hl ⊢
  intro h
  exact hl (by rw [List.map_append]; exact List.mem_append_left _ h)

theorem remaining_lt (locs : List (Option Str)) (seen : List (Option Str × β)) (l : Option Str) (v : β) (hl : l ∈ locs)
    (hn : l ∉ seen.map (·.1)) : remaining locs (seen ++ [(l, v)]) < remaining locs seen := by
  refine filter_lt ?_ hl ?_ ?_
  · intro l hl
    simp only [Bool.not_eq_true'] at hl ⊢
    rw [← Bool.not_eq_true, List.contains_iff_mem] at hl ⊢
    intro h
    exact hl (by rw [List.map_append]; exact List.mem_append_left _ h)
  · simp only [Bool.not_eq_true']
    rw [← Bool.not_eq_true, List.contains_iff_mem]
    exact hn
  · simp only [Bool.not_eq_true']
    rw [← Bool.not_eq_true, List.contains_iff_mem]
    simp

theorem foldE_total {α σ : Type} {P : σ → Prop} {f : σ → α → Except Exn σ} {l : List α} {s : σ} (hs : P s)
    (hf : ∀ a ∈ l, ∀ s, P s → ∃ s', f s a = .ok s' ∧ P s') : ∃ s', foldE f s l = .ok s' ∧ P s' := by
  induction l generalizing s with
  | nil => exact ⟨s, rfl, hs⟩
  | cons a l ih =>
    obtain ⟨m, h1, h2⟩ := hf a (by simp) s hs
    obtain ⟨s', h3, h4⟩ := ih h2 fun b hb => hf b (by simp [hb])
    exact ⟨s', by simp only [foldE, bind, Except.bind, h1, h3], h4⟩

theorem walk_total (locs : List (Option Str)) (n : Nat) : ∀ (roots : List SchemaId) (seen : List (Option Str × β)),
    (∀ i, Reaches W roots i → (W.schema i).location ∈ locs ∧ ∃ v, cb i = .ok v) → remaining locs seen < n →
    ∃ seen', walkSchemaTree W cb n roots seen = .ok seen' := by
  induction n with
  | zero => intro _ _ _ h; cases h
  | succ n ih =>
    intro roots seen hr hn
    rw [walkSchemaTree]
    obtain ⟨s', h, _⟩ := foldE_total (P := fun s : List (Option Str × β) => remaining locs s < n + 1) hn
      (f := fun seen schema => foldE (fun seen item =>
        if (seen.map (·.1)).contains (W.schema item).location then .ok seen
        else do
          let v ← cb item
          walkSchemaTree W cb n [item] (seen ++ [((W.schema item).location, v)])) seen (W.items schema)) (l := roots) (by
      intro r hrm s hs
      refine foldE_total hs ?_
      intro item hi s hs
      have hreach : Reaches W roots item := .root hrm (mem_items.1 hi)
      obtain ⟨hl, v, hv⟩ := hr item hreach
      split
      · exact ⟨s, rfl, hs⟩
      · rename_i hc
        have hlt := remaining_lt locs s _ v hl (by simpa [List.contains_iff_mem] using hc)
        obtain ⟨s', h'⟩ := ih [item] (s ++ [((W.schema item).location, v)])
          (fun i hi => hr i (hi.subset fun r hr' => by simp at hr'; subst hr'; exact .inr hreach)) (by omega)
        refine ⟨s', by simp only [bind, Except.bind, hv, h'], ?_⟩
        obtain ⟨new, rfl, _⟩ := walk_ext _ _ _ _ h'
        have := remaining_le locs (s ++ [((W.schema item).location, v)]) new
        omega)
    exact ⟨s', h⟩

/-- **C57 (terminates).** The walk ends on every schema graph, cyclic ones included: the nesting is bounded by the
number of locations. -/
theorem C57_terminates (W : World) (cb : SchemaId → Except Exn β) (roots : List SchemaId) (locs : List (Option Str))
    (hl : ∀ i, Reaches W roots i → (W.schema i).location ∈ locs) (hcb : ∀ i, Reaches W roots i → ∃ v, cb i = .ok v)
    (n : Nat) (hn : locs.length < n) : ∃ seen, walkSchemaTree W cb n roots [] = .ok seen := by
  refine walk_total locs n roots [] (fun i hi => ⟨hl i hi, hcb i hi⟩) ?_
  refine Nat.lt_of_le_of_lt ?_ hn
  exact List.length_filter_le _ _

end

/-! ### C58: looking up elements -/

section
variable {W : World}

theorem firstE_none {α β : Type} {f : α → Except Exn (Option β)} {l : List α} (h : ∀ a ∈ l, f a = .ok none) :
    firstE f l = .ok none := by
  induction l with
  | nil => rfl
  | cons a l ih =>
    simp only [firstE, bind, Except.bind, h a (by simp)]
    exact ih fun b hb => h b (by simp [hb])

/-- The value of a lookup in a list of schemas in order. -/
def lookedUp (W : World) (name : Str) (l : List SchemaId) : Option SElem :=
  l.findSome? fun s => (W.schema s).elements.get? name

theorem listed_lookup {n : Nat} {roots l : List SchemaId} (h : Listed W n roots l) (name : Str) :
    firstE (elementByName W name n) roots = .ok (lookedUp W name l) := by
  induction h with
  | nil => rfl
  | @cons n s rest l l' _ _ ih1 ih2 =>
    simp only [firstE, bind, Except.bind, lookedUp, List.cons_append, List.findSome?_cons, elementByName]
    cases hd : (W.schema s).elements.get? name with
    | some e => rfl
    | none =>
      simp only [ih1]
      rw [List.findSome?_append]
      unfold lookedUp
      cases hl : l.findSome? fun s => (W.schema s).elements.get? name with
      | some e => rfl
      | none => exact ih2

theorem findSome?_first {α β : Type} {f : α → Option β} {l : List α} {b : β} :
    l.findSome? f = some b ↔ ∃ a, First (fun a => ∃ b, f a = some b) l a ∧ f a = some b := by
  rw [List.findSome?_eq_some_iff]
  constructor
  · rintro ⟨pre, a, post, h1, h2, h3⟩
    exact ⟨a, ⟨pre, post, h1, ⟨b, h2⟩, fun c hc => by simp [h3 c hc]⟩, h2⟩
  · rintro ⟨a, ⟨pre, post, h1, _, h3⟩, h4⟩
    refine ⟨pre, a, post, h1, h4, fun c hc => ?_⟩
    cases h : f c with
    | none => rfl
    | some x => exact absurd ⟨x, h⟩ (h3 c hc)

/-- **C58 (found).** The element of the first schema in depth-first order that declares the name. -/
theorem C58_found (W : World) (S : Service) (l : List SchemaId) (hl : Listed W W.depth S.schemas l) (name : Str)
    (e : SElem) : S.findElement W name = .ok (some e) ↔
      ∃ s, First (fun s => ∃ e, SchemaDeclares W s name e) l s ∧ SchemaDeclares W s name e := by
  unfold Service.findElement
  rw [listed_lookup hl]
  unfold lookedUp SchemaDeclares
  rw [← findSome?_first]
  simp

/-- **C58 (missing).** None when no schema of the list declares it. -/
theorem C58_missing (W : World) (S : Service) (l : List SchemaId) (hl : Listed W W.depth S.schemas l) (name : Str) :
    S.findElement W name = .ok none ↔ ∀ s ∈ l, ∀ e, ¬ SchemaDeclares W s name e := by
  unfold Service.findElement
  rw [listed_lookup hl]
  unfold lookedUp SchemaDeclares
  rw [Except.ok.injEq, List.findSome?_eq_none_iff]
  constructor
  · intro h s hs e he
    rw [h s hs] at he
    cases he
  · intro h s hs
    cases hd : (W.schema s).elements.get? name with
    | none => rfl
    | some e => exact absurd hd (h s hs e)

theorem Listed.roots {n : Nat} {roots l : List SchemaId} (h : Listed W n roots l) : ∀ s ∈ roots, s ∈ l := by
  induction h with
  | nil => simp
  | cons _ _ _ ih2 =>
    intro t ht
    rcases List.mem_cons.1 ht with rfl | ht
    · simp
    · exact List.mem_cons_of_mem _ (List.mem_append_right _ (ih2 t ht))

theorem Listed.closed {n : Nat} {roots l : List SchemaId} (h : Listed W n roots l) :
    ∀ s ∈ l, ∀ t, Refers W s t → t ∈ l := by
  induction h with
  | nil => simp
  | @cons n s rest l l' h1 _ ih1 ih2 =>
    intro t ht u hu
    simp only [List.cons_append, List.mem_cons, List.mem_append] at ht ⊢
    rcases ht with rfl | ht | ht
    · exact .inr (.inl (h1.roots u (List.mem_append.2 hu)))
    · exact .inr (.inl (ih1 t ht u hu))
    · exact .inr (.inr (ih2 t ht u hu))

/-- **C58 (list).** The list consists of the service's schemas and all schemas reachable from them. -/
theorem C58_list (W : World) (n : Nat) (roots l : List SchemaId) (h : Listed W n roots l) (s : SchemaId) :
    s ∈ l ↔ s ∈ roots ∨ Reaches W roots s := by
  constructor
  · intro hs
    induction h with
    | nil => cases hs
    | @cons n r rest l l' h1 _ ih1 ih2 =>
      simp only [List.cons_append, List.mem_cons, List.mem_append] at hs ⊢
      rcases hs with rfl | hs | hs
      · exact .inl (.inl rfl)
      · refine .inr ?_
        rcases ih1 hs with h | h
        · exact .root (r := r) (by simp) (List.mem_append.1 h)
        · refine h.subset fun t ht => .inr (.root (r := r) (by simp) (List.mem_append.1 ht))
      · rcases ih2 hs with h | h
        · exact .inl (.inr h)
        · exact .inr (h.subset fun t ht => .inl (by simp [ht]))
  · rintro (hs | hs)
    · exact h.roots s hs
    · induction hs with
      | root hr h1 => exact h.closed _ (h.roots _ hr) _ h1
      | next _ h1 ih => exact h.closed _ ih _ h1

/-- **C58 (acyclic).** There is such a list when no schema refers to itself, however indirectly (references go down in
some numbering), and the nesting fits. -/
theorem C58_acyclic (W : World) (rank : SchemaId → Nat) (hr : ∀ a b, Refers W a b → rank b < rank a) (n : Nat)
    (roots : List SchemaId) (hn : ∀ s ∈ roots, rank s < n) : ∃ l, Listed W n roots l := by
  induction n generalizing roots with
  | zero =>
    cases roots with
    | nil => exact ⟨[], .nil⟩
    | cons s _ => exact absurd (hn s (by simp)) (Nat.not_lt_zero _)
  | succ n ih =>
    induction roots with
    | nil => exact ⟨[], .nil⟩
    | cons s rest ih2 =>
      obtain ⟨l', h'⟩ := ih2 fun t ht => hn t (by simp [ht])
      obtain ⟨l, h⟩ := ih ((W.schema s).imports ++ (W.schema s).includes) fun t ht =>
        Nat.lt_of_lt_of_le (hr s t (List.mem_append.1 ht)) (Nat.le_of_lt_succ (hn s (by simp)))
      exact ⟨_, .cons h h'⟩

theorem reaches_first {t s : SchemaId} (h : Reaches W [t] s) : ∃ b, Refers W t b ∧ (b = s ∨ Reaches W [b] s) := by
  induction h with
  | root hr h1 => simp at hr; subst hr; exact ⟨_, h1, .inl rfl⟩
  | next _ h1 ih =>
    obtain ⟨b, h2, h3⟩ := ih
    rcases h3 with rfl | h3
    · exact ⟨b, h2, .inr (.root (by simp) h1)⟩
    · exact ⟨b, h2, .inr (.next h3 h1)⟩

theorem firstE_undeclared {α β : Type} {f : α → Except Exn (Option β)} {l : List α} {e : Exn}
    (h : ∀ a ∈ l, f a = .ok none ∨ f a = .error e) : firstE f l = .ok none ∨ firstE f l = .error e := by
  induction l with
  | nil => exact .inl rfl
  | cons a l ih =>
    simp only [firstE, bind, Except.bind]
    rcases h a (by simp) with h1 | h1 <;> rw [h1]
    · exact ih fun b hb => h b (by simp [hb])
    · exact .inr rfl

theorem firstE_error {α β : Type} {f : α → Except Exn (Option β)} {l : List α} {e : Exn} {a : α} (ha : a ∈ l)
    (hf : f a = .error e) (h : ∀ a ∈ l, f a = .ok none ∨ f a = .error e) : firstE f l = .error e := by
  induction l with
  | nil => cases ha
  | cons b l ih =>
    simp only [firstE, bind, Except.bind]
    rcases List.mem_cons.1 ha with rfl | ha
    · rw [hf]
    · rcases h b (by simp) with h1 | h1 <;> rw [h1]
      exact ih ha fun b hb => h b (by simp [hb])

theorem lookup_undeclared {name : Str} {P : SchemaId → Prop} (hcl : ∀ s t, P s → Refers W s t → P t)
    (hun : ∀ s, P s → ∀ e, ¬ SchemaDeclares W s name e) (n : Nat) (s : SchemaId) (hs : P s) :
    elementByName W name n s = .ok none ∨ elementByName W name n s = .error .recursionError := by
  induction n generalizing s with
  | zero => exact .inr rfl
  | succ n ih =>
    have : (W.schema s).elements.get? name = none := by
      cases h : (W.schema s).elements.get? name with
      | none => rfl
      | some e => exact absurd h (hun s hs e)
    simp only [elementByName, this]
    exact firstE_undeclared fun t ht => ih t (hcl s t hs (List.mem_append.1 ht))

/-- **C58 (cyclic).** If some schema refers to itself, however indirectly, looking up a name nobody declares exhausts
the stack. -/
theorem C58_cyclic (W : World) (S : Service) (name : Str)
    (hun : ∀ s, s ∈ S.schemas ∨ Reaches W S.schemas s → ∀ e, ¬ SchemaDeclares W s name e) (s : SchemaId)
    (hs : s ∈ S.schemas ∨ Reaches W S.schemas s) (hc : Reaches W [s] s) :
    S.findElement W name = .error .recursionError := by
  let P : SchemaId → Prop := fun s => s ∈ S.schemas ∨ Reaches W S.schemas s
  have hcl : ∀ s t, P s → Refers W s t → P t := by
    rintro s t (h | h) ht
    · exact .inr (.root h ht)
    · exact .inr (.next h ht)
  have key : ∀ n t, P t → (t = s ∨ Reaches W [t] s) → elementByName W name n t = .error .recursionError := by
    intro n
    induction n with
    | zero => intros; rfl
    | succ n ih =>
      intro t ht hts
      have hd : (W.schema t).elements.get? name = none := by
        cases h : (W.schema t).elements.get? name with
        | none => rfl
        | some e => exact absurd h (hun t ht e)
      have hr : Reaches W [t] s := by
        rcases hts with rfl | h
        · exact hc
        · exact h
      obtain ⟨b, hb, hb'⟩ := reaches_first hr
      simp only [elementByName, hd]
      exact firstE_error (a := b) (List.mem_append.2 hb) (ih b (hcl t b ht hb) hb')
        fun u hu => lookup_undeclared hcl hun n u (hcl t u ht (List.mem_append.1 hu))
  have hroot : ∃ r ∈ S.schemas, r = s ∨ Reaches W [r] s := by
    rcases hs with h | h
    · exact ⟨s, h, .inl rfl⟩
    · clear hc key
      induction h with
      | root hr h1 => exact ⟨_, hr, .inr (.root (by simp) h1)⟩
      | next _ h1 ih =>
        obtain ⟨r, hr, h2⟩ := ih
        rcases h2 with rfl | h2
        · exact ⟨_, hr, .inr (.root (by simp) h1)⟩
        · exact ⟨r, hr, .inr (.next h2 h1)⟩
  obtain ⟨r, hr, hrs⟩ := hroot
  exact firstE_error hr (key W.depth r (.inl hr) hrs) fun t ht => lookup_undeclared hcl hun W.depth t (.inl ht)

end

/-! ### C59: methods -/

/-- **C59 (lookup).** The first method with the operation name. -/
theorem C59_method (W : World) (S : Service) (op : Str) (m : MethodId) :
    S.getMethod W op = .ok m ↔ First (fun m => (W.method m).operationName = op) S.methods m := by
  unfold Service.getMethod
  have h0 : ∀ o : Option MethodId, optE .stopIteration o = .ok m ↔ o = some m := by
    intro o; cases o <;> simp [optE]
  rw [h0, List.find?_eq_some_iff_append]
  constructor
  · rintro ⟨h1, pre, post, h2, h3⟩
    exact ⟨pre, post, h2, by simpa using h1, fun b hb => by simpa using h3 b hb⟩
  · rintro ⟨pre, post, h1, h2, h3⟩
    exact ⟨by simpa using h2, pre, post, h1, fun b hb => by simpa using h3 b hb⟩

/-- **C59 (no method).** Without such a method the error is StopIteration. -/
theorem C59_no_method (W : World) (S : Service) (op : Str) (f : ReqId → Val → Prog Empty Ret)
    (h : ∀ m ∈ S.methods, (W.method m).operationName ≠ op) :
    S.getMethod W op = .error .stopIteration ∧ ∀ ms, S.route W op f ≠ .ok ms := by
  have h1 : S.methods.find? (fun m => decide ((W.method m).operationName = op)) = none := by
    rw [List.find?_eq_none]
    intro m hm
    simpa using h m hm
  have h2 : S.getMethod W op = .error .stopIteration := by
    unfold Service.getMethod
    rw [h1]; rfl
  refine ⟨h2, ?_⟩
  intro ms hms
  unfold Service.route at hms
  rw [h2] at hms
  cases hms

/-- **C59 (route).** Binding a function to an operation makes it the function of the first method with that name; the
method is otherwise the same, and all others are unchanged. -/
theorem C59_route (W : World) (S : Service) (op : Str) (f : ReqId → Val → Prog Empty Ret) (m : MethodId)
    (h : First (fun m => (W.method m).operationName = op) S.methods m) :
    ∃ ms, S.route W op f = .ok ms ∧ (ms m).function = some f ∧
      { ms m with function := (W.method m).function } = W.method m ∧ ∀ m', m' ≠ m → ms m' = W.method m' := by
  refine ⟨fun m' => if m' = m then { W.method m' with function := some f } else W.method m', ?_, ?_, ?_, ?_⟩
  · unfold Service.route
    rw [(C59_method W S op m).2 h]
    rfl
  · simp
  · simp
  · intro m' hm
    simp [hm]

/-! ### Examples -/

namespace ExSchemas

def at_ (loc : Str) (imports includes : List SchemaId := []) (elements : List (Str × SElem) := []) : Schema :=
  ⟨py"urn:x", false, elements, imports, includes, some loc⟩

/-- Schema 0 imports 1 and includes 2; 1 imports 2 and 0 (a cycle); 2 refers to nobody; 3 imports 4 and 5, which have
no location; 6 imports 2. -/
def schemas : SchemaId → Schema
  | 0 => at_ py"a.xsd" [1] [2]
  | 1 => at_ py"b.xsd" [2, 0] [] [(py"x", ⟨.simple (.integer {}), none⟩)]
  | 2 => at_ py"c.xsd" [] [] [(py"x", ⟨.simple (.string {}), none⟩), (py"y", ⟨.simple (.string {}), none⟩)]
  | 3 => at_ py"d.xsd" [4, 5]
  | 6 => at_ py"e.xsd" [2]
  | _ => ⟨py"urn:x", false, [], [], [], none⟩

def methods : MethodId → Method
  | 0 => { operationName := py"A", soapAction := py"a", input := .name py"i", output := .name py"o" }
  | 1 => { operationName := py"B", soapAction := py"b", input := .name py"i", output := .name py"o" }
  | _ => { operationName := py"B", soapAction := py"c", input := .name py"i", output := .name py"o" }

def world : World where
  user := fun n => { name := py"Other", mro := [n, 0], fields := [] }
  depth := 10
  method := methods
  schema := schemas
  disp := fun _ => ⟨{ schemas := [0], methods := [] }, [], [], [], [], false, fun _ => .ok ()⟩
  read := fun _ => none
  write := fun _ => []
  encode := fun _ => []
  decode := fun _ => .ok []
  wsaValid := fun _ => .ok ()
  describe := fun _ => []
  traceback := fun _ => []

/-- On the cyclic graph every schema is visited once, the root too since something imports it. -/
example : walkSchemaTree world (fun i => .ok i) 5 [0] [] =
    .ok [(some py"b.xsd", 1), (some py"c.xsd", 2), (some py"a.xsd", 0)] := by rfl

/-- Schemas without a location are taken for the same one. -/
example : walkSchemaTree world (fun i => .ok i) 5 [3] [] = .ok [(none, 4)] := by rfl

/-- An acyclic graph: `y` is found through the import. -/
example : Listed world 10 [6, 2] [6, 2, 2] :=
  .cons (l := [2]) (.cons (l := []) .nil .nil) (.cons (l := []) .nil .nil)
example : ({ schemas := [6, 2], methods := [] } : Service).findElement world py"y" =
    .ok (some ⟨.simple (.string {}), none⟩) := by rfl

/-- On the cyclic graph declared names are found, the nearest declaration first, and undeclared ones exhaust the
stack. -/
example : ({ schemas := [0], methods := [] } : Service).findElement world py"x" =
    .ok (some ⟨.simple (.integer {}), none⟩) := by rfl
example : ({ schemas := [0], methods := [] } : Service).findElement world py"z" = .error .recursionError := by
  refine C58_cyclic world _ py"z" ?_ 0 (.inl (by simp)) (.next (i := 1) (.root (r := 0) (by simp) (.inl ?_)) (.inl ?_))
  · intro s _ e
    unfold SchemaDeclares
    have : ∀ s, (schemas s).elements.get? py"z" = none := by
      intro s
      unfold schemas
      split <;> rfl
    show ¬ (schemas s).elements.get? py"z" = some e
    rw [this]
    simp
  · decide
  · decide

/-- Of two methods with the name the first one is bound. -/
example (f) : ∃ ms, ({ schemas := [], methods := [0, 1, 2] } : Service).route world py"B" f = .ok ms ∧
    (ms 1).function = some f ∧ ms 2 = methods 2 := by
  obtain ⟨ms, h1, h2, _, h3⟩ := C59_route world { schemas := [], methods := [0, 1, 2] } py"B" f 1
    ⟨[0], [2], rfl, rfl, by simp [world, methods]⟩
  exact ⟨ms, h1, h2, h3 2 (by decide)⟩

end ExSchemas

end Soapfish
