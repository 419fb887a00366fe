import Verif.Spec.Heap
import Verif.Spec.Values
import Verif.ComplexLemmas
/-
Lemmas about the heap model.
-/
namespace Soapfish

theorem andThen_eq {α β : Type} {r : Except Exn α × Heap} {k : α → Act β} {x : Except Exn β × Heap}
    (h : Act.andThen r k = x) : (∃ a, r.1 = .ok a ∧ k a r.2 = x) ∨ ∃ e, r.1 = .error e ∧ x = (.error e, r.2) := by
  obtain ⟨r, hp⟩ := r
  cases r with
  | ok a => exact .inl ⟨a, rfl, h⟩
  | error e => exact .inr ⟨e, rfl, h.symm⟩

/-! ### Accepting -/

/-- Objects stay instances of their classes. -/
def KeepsClasses (h h' : Heap) : Prop :=
  ∀ (a : Addr) (c : ClsId) (fs : List (Str × HVal)), h.cells[a]? = some (.inst c fs) → ∃ fs', h'.cells[a]? = some (.inst c fs')

theorem KeepsClasses.refl (h : Heap) : KeepsClasses h h := fun _ _ fs e => ⟨fs, e⟩

theorem KeepsClasses.trans {h h' h'' : Heap} (h1 : KeepsClasses h h') (h2 : KeepsClasses h' h'') : KeepsClasses h h'' := by
  intro a c fs e
  obtain ⟨fs', e'⟩ := h1 a c fs e
  exact h2 a c fs' e'

theorem prefix_get {h h' : Heap} (hp : h.cells <+: h'.cells) {a : Addr} {c : Cell} (e : h.cells[a]? = some c) :
    h'.cells[a]? = some c := by
  obtain ⟨t, ht⟩ := hp
  rw [← ht, List.getElem?_append_left]
  · exact e
  · exact (List.getElem?_eq_some_iff.1 e).1

theorem prefix_keeps {h h' : Heap} (hp : h.cells <+: h'.cells) : KeepsClasses h h' :=
  fun _ _ fs e => ⟨fs, prefix_get hp e⟩

theorem Accepts.mono {T : Table} {h h' : Heap} {f : Field} {v w : HVal} (hk : KeepsClasses h h')
    (ha : Accepts T h f v w) : Accepts T h' f v w := by
  cases ha with
  | nil h1 => exact .nil h1
  | simple h1 h2 h3 => exact .simple h1 h2 h3
  | none h1 => exact .none h1
  | inst h1 h2 h3 => obtain ⟨fs', e⟩ := hk _ _ _ h2; exact .inst h1 e h3
  | header h1 h2 h3 => exact .header h1 h2 h3

theorem acceptItemH_accepts {T : Table} {h : Heap} {f : Field} {v w : HVal} (ha : f.acceptItemH T h v = .ok w) :
    Accepts T h f v w := by
  unfold Field.acceptItemH at ha
  split at ha
  · next hn =>
    subst hn
    split at ha
    · next hb => injection ha with ha; subst ha; exact .nil hb
    · cases ha
  · next hn =>
    unfold FType.acceptH at ha
    split at ha
    · next s hs =>
      rw [map_eq_ok] at ha
      obtain ⟨b, hb, rfl⟩ := ha
      exact .simple hn hs hb
    · next c hc =>
      split at ha
      · next hh => injection ha with ha; subst ha; exact .header hc hh hn
      · split at ha
        · injection ha with ha; subst ha; exact .none hc
        · next a =>
          split at ha
          · next hi =>
            injection ha with ha; subst ha
            unfold isInst at hi
            split at hi
            · next c' fs hcell => exact .inst hc hcell (by simpa [isSub] using hi)
            · cases hi
          · cases ha
        · cases ha
    · cases ha

theorem acceptH_accepts {T : Table} {N : Nat} {h : Heap} {f : Field} {v w : HVal} (hk : f.kind ≠ .list)
    (ha : f.acceptH T N h v = .ok w) : Accepts T h f v w := by
  simp only [Field.acceptH, if_neg hk, bind_eq_ok] at ha
  obtain ⟨_, _, ha⟩ := ha
  exact acceptItemH_accepts ha

theorem acceptH_list {T : Table} {N : Nat} {h : Heap} {f : Field} {v w : HVal} (hk : f.kind = .list)
    (ha : f.acceptH T N h v = .ok w) : w = v := by
  simp only [Field.acceptH, if_pos hk] at ha
  injection ha with ha; exact ha.symm

/-! ### Invariant -/

/-- Every object has exactly the declared fields, all with accepted values. -/
def Good (T : Table) (h : Heap) : Prop :=
  ∀ (a : Addr) (c : ClsId) (fs : List (Str × HVal)), h.cells[a]? = some (.inst c fs) → fs.map (·.1) = (T c).fields.map (·.name) ∧
    ∀ f ∈ (T c).fields, f.kind ≠ .list → ∃ u v, Dict.get? fs f.name = some v ∧ Accepts T h f u v

theorem good_empty (T : Table) : Good T {} := by intro a c fs h; simp at h

theorem alloc_cells (h : Heap) (c : Cell) : (h.alloc c).2.cells = h.cells ++ [c] := rfl

theorem alloc_prefix (h : Heap) (c : Cell) : h.cells <+: (h.alloc c).2.cells := ⟨[c], rfl⟩

theorem get_append {h : Heap} {c x : Cell} {a : Addr} (e : (h.cells ++ [c])[a]? = some x) :
    h.cells[a]? = some x ∨ (a = h.cells.length ∧ x = c) := by
  rw [List.getElem?_append] at e
  split at e
  · exact .inl e
  · next hlt =>
    by_cases ha : a = h.cells.length
    · subst ha; simp at e; exact .inr ⟨rfl, e.symm⟩
    · have : a - h.cells.length ≠ 0 := by
        intro h0; exact ha (Nat.le_antisymm (Nat.sub_eq_zero_iff_le.1 h0) (Nat.le_of_not_lt hlt))
      cases hm : a - h.cells.length with
      | zero => exact absurd hm this
      | succ m => rw [hm] at e; simp at e

theorem good_alloc_list {T : Table} {h : Heap} (hg : Good T h) (o : Option Field) (items : List HVal) :
    Good T (h.alloc (.list o items)).2 := by
  intro a c fs e
  rw [alloc_cells] at e
  rcases get_append e with e | ⟨_, e⟩
  · obtain ⟨h1, h2⟩ := hg a c fs e
    refine ⟨h1, fun f hf hk => ?_⟩
    obtain ⟨u, v, hv, ha⟩ := h2 f hf hk
    exact ⟨u, v, hv, ha.mono (prefix_keeps (alloc_prefix _ _))⟩
  · cases e

theorem good_alloc_inst {T : Table} {h : Heap} (hg : Good T h) (c : ClsId) (fs : List (Str × HVal))
    (h1 : fs.map (·.1) = (T c).fields.map (·.name))
    (h2 : ∀ f ∈ (T c).fields, f.kind ≠ .list → ∃ u v, Dict.get? fs f.name = some v ∧ Accepts T h f u v) :
    Good T (h.alloc (.inst c fs)).2 := by
  intro a c' fs' e
  rw [alloc_cells] at e
  have hm : KeepsClasses h (h.alloc (.inst c fs)).2 := prefix_keeps (alloc_prefix _ _)
  rcases get_append e with e | ⟨_, e⟩
  · obtain ⟨h1, h2⟩ := hg a c' fs' e
    refine ⟨h1, fun f hf hk => ?_⟩
    obtain ⟨u, v, hv, ha⟩ := h2 f hf hk
    exact ⟨u, v, hv, ha.mono hm⟩
  · injection e with e1 e2; subst e1 e2
    refine ⟨h1, fun f hf hk => ?_⟩
    obtain ⟨u, v, hv, ha⟩ := h2 f hf hk
    exact ⟨u, v, hv, ha.mono hm⟩

/-- New lists are empty and belong to a ListElement. -/
def FreshLists (h h' : Heap) : Prop :=
  ∀ (a : Addr) (o : Option Field) (items : List HVal), h.cells.length ≤ a → h'.cells[a]? = some (.list o items) → items = []

theorem FreshLists.trans {h h' h'' : Heap} (h1 : FreshLists h h') (h2 : FreshLists h' h'')
    (hp : h'.cells <+: h''.cells) : FreshLists h h'' := by
  intro a o items ha e
  by_cases hlt : a < h'.cells.length
  · have : h'.cells[a]? = h''.cells[a]? := by
      obtain ⟨t, ht⟩ := hp
      rw [← ht, List.getElem?_append_left hlt]
    exact h1 a o items ha (by rw [this]; exact e)
  · exact h2 a o items (Nat.le_of_not_lt hlt) e

theorem FreshLists.refl (h : Heap) : FreshLists h h := by
  intro a o items ha e
  rw [List.getElem?_eq_none ha] at e; cases e

/-- What construction guarantees. -/
structure Builds (T : Table) (h h' : Heap) : Prop where
  good : Good T h → Good T h'
  pre : h.cells <+: h'.cells
  fresh : FreshLists h h'

theorem Builds.refl (T : Table) (h : Heap) : Builds T h h := ⟨id, List.prefix_refl _, .refl h⟩

theorem Builds.trans {T : Table} {h h' h'' : Heap} (h1 : Builds T h h') (h2 : Builds T h' h'') : Builds T h h'' :=
  ⟨h2.good ∘ h1.good, h1.pre.trans h2.pre, h1.fresh.trans h2.fresh h2.pre⟩

/-- The fields made by construction. -/
def FieldsOk (T : Table) (h : Heap) (L : List Field) (fs : List (Str × HVal)) : Prop :=
  All2 (fun f (p : Str × HVal) => p.1 = f.name ∧ (f.kind ≠ .list → ∃ u, Accepts T h f u p.2)) L fs

theorem good_protos {T : Table} {h : Heap} {p : List (Nat × Addr)} (hg : Good T h) : Good T { h with protos := p } := by
  intro a c fs e
  obtain ⟨h1, h2⟩ := hg a c fs e
  refine ⟨h1, fun f hf hk => ?_⟩
  obtain ⟨u, v, hv, ha⟩ := h2 f hf hk
  exact ⟨u, v, hv, ha.mono (h := h) fun _ _ fs e => ⟨fs, e⟩⟩

theorem builds_protos {T : Table} {h : Heap} {p : List (Nat × Addr)} : Builds T h { h with protos := p } :=
  ⟨good_protos, List.prefix_refl _, .refl h⟩

theorem builds_copy {T : Table} (a : Addr) (h : Heap) {r : Except Exn HVal} {h' : Heap} (he : copyInst a h = (r, h')) :
    Builds T h h' := by
  unfold copyInst at he
  split at he
  · next c fs e =>
    simp only [Prod.mk.injEq] at he
    obtain ⟨_, rfl⟩ := he
    refine ⟨fun hg => ?_, alloc_prefix _ _, ?_⟩
    · obtain ⟨h1, h2⟩ := hg a c fs e
      exact good_alloc_inst hg c fs h1 h2
    · intro b o items hb e'
      rw [alloc_cells] at e'
      rcases get_append e' with e' | ⟨_, e'⟩
      · rw [List.getElem?_eq_none hb] at e'; cases e'
      · cases e'
  · simp only [Prod.mk.injEq] at he
    obtain ⟨_, rfl⟩ := he
    exact .refl T _

theorem builds_proto {T : Table} {did : Nat} {nw : Act HVal} (hn : ∀ h r h', nw h = (r, h') → Builds T h h') (h : Heap)
    {r : Except Exn Addr} {h' : Heap} (he : prototype did nw h = (r, h')) : Builds T h h' := by
  unfold prototype at he
  split at he
  · simp only [Prod.mk.injEq] at he
    obtain ⟨_, rfl⟩ := he
    exact .refl T _
  · rcases andThen_eq he with ⟨v, hv, he⟩ | ⟨e, _, he⟩
    · have hb := hn h (nw h).1 (nw h).2 rfl
      split at he
      · injection he with _ he; subst he
        exact hb.trans builds_protos
      · injection he with _ he; subst he
        exact hb
    · injection he with _ he; subst he
      exact hn h (nw h).1 (nw h).2 rfl

theorem builds_empty {T : Table} {nw : ClsId → Act HVal} (hn : ∀ c h r h', nw c h = (r, h') → Builds T h h') {did : Nat}
    {f : Field} {h : Heap} {r : Except Exn HVal} {h' : Heap} (he : emptyH nw did f h = (r, h')) : Builds T h h' := by
  unfold emptyH at he
  split at he
  · simp only [Prod.mk.injEq] at he
    obtain ⟨_, rfl⟩ := he
    refine ⟨fun hg => good_alloc_list hg _ _, alloc_prefix _ _, ?_⟩
    intro b o items hb e'
    rw [alloc_cells] at e'
    rcases get_append e' with e' | ⟨_, e'⟩
    · rw [List.getElem?_eq_none hb] at e'; cases e'
    · injection e'
  · injection he with _ he; subst he; exact .refl T _
  · split at he
    · next c hc =>
      rcases andThen_eq he with ⟨a, ha, he⟩ | ⟨e, _, he⟩
      · exact (builds_proto (hn c) h rfl).trans (builds_copy a _ he)
      · injection he with _ he; subst he
        exact builds_proto (hn c) h rfl
    · injection he with _ he; subst he; exact .refl T _
  · injection he with _ he; subst he; exact .refl T _

theorem builds_fields {T : Table} {N : Nat} {nw : ClsId → Act HVal}
    (hn : ∀ c h r h', nw c h = (r, h') → Builds T h h') {did : Str → Nat} (L : List Field) :
    ∀ {h : Heap} {r : Except Exn (List (Str × HVal))} {h' : Heap}, emptyFields T N nw did L h = (r, h') →
      Builds T h h' ∧ ∀ fs, r = .ok fs → FieldsOk T h' L fs := by
  induction L with
  | nil =>
    intro h r h' he
    simp only [emptyFields, Prod.mk.injEq] at he
    obtain ⟨rfl, rfl⟩ := he
    exact ⟨.refl T _, fun fs e => by injection e with e; subst e; exact .nil⟩
  | cons f L ih =>
    intro h r h' he
    rw [emptyFields] at he
    rcases andThen_eq he with ⟨v, hv, he⟩ | ⟨e, _, he⟩
    · have hb1 := builds_empty (T := T) hn (did := did f.name) (f := f) (h := h) rfl
      rcases andThen_eq he with ⟨w, hw, he⟩ | ⟨e, _, he⟩
      · simp only at hw he
        rcases andThen_eq he with ⟨fs, hfs, he⟩ | ⟨e, _, he⟩
        · obtain ⟨hb2, hok⟩ := ih (h := (emptyH nw (did f.name) f h).2) rfl
          injection he with hr hh; subst hr hh
          refine ⟨hb1.trans hb2, fun fs' e => ?_⟩
          injection e with e; subst e
          refine .cons ⟨rfl, fun hk => ⟨v, ?_⟩⟩ (hok fs hfs)
          exact (acceptH_accepts hk hw).mono (prefix_keeps hb2.pre)
        · obtain ⟨hb2, hok⟩ := ih (h := (emptyH nw (did f.name) f h).2) rfl
          injection he with hr hh; subst hr hh
          exact ⟨hb1.trans hb2, fun fs' e => by cases e⟩
      · injection he with hr hh; subst hr hh
        exact ⟨hb1, fun fs' e => by cases e⟩
    · injection he with hr hh; subst hr hh
      exact ⟨builds_empty hn rfl, fun fs' e => by cases e⟩

theorem builds_new {T : Table} (hT : T.Wf) {did : ClsId → Str → Nat} : ∀ (n : Nat) (c : ClsId) (h : Heap)
    (r : Except Exn HVal) (h' : Heap), newH T did n c h = (r, h') →
      Builds T h h' := by
  intro n
  induction n with
  | zero =>
    intro c h r h' he
    simp only [newH, Prod.mk.injEq] at he
    obtain ⟨_, rfl⟩ := he
    exact .refl T _
  | succ n ih =>
    intro c h r h' he
    rw [newH] at he
    obtain ⟨hb, hok⟩ := builds_fields (N := n) (did := did c) ih (T c).fields (h := h) rfl
    rcases andThen_eq he with ⟨fs, hfs, he⟩ | ⟨e, _, he⟩
    · simp only [Prod.mk.injEq] at he
      obtain ⟨_, rfl⟩ := he
      refine hb.trans ⟨fun hg => ?_, alloc_prefix _ _, ?_⟩
      · obtain ⟨h1, h2⟩ := zip_get (P := fun f w => f.kind ≠ .list → ∃ u, Accepts T _ f u w) (hok fs hfs) (hT c)
        refine good_alloc_inst hg c fs h1 fun f hf hk => ?_
        obtain ⟨v, hv, ha⟩ := h2 f hf
        obtain ⟨u, ha⟩ := ha hk
        exact ⟨u, v, hv, ha⟩
      · intro b o items hb e'
        rw [alloc_cells] at e'
        rcases get_append e' with e' | ⟨_, e'⟩
        · rw [List.getElem?_eq_none hb] at e'; cases e'
        · cases e'
    · injection he with _ he; subst he
      exact hb

/-! ### The other operations -/

theorem put_get_self {h : Heap} {a : Addr} {c x : Cell} (e : h.cells[a]? = some x) : (h.put a c).cells[a]? = some c := by
  have := (List.getElem?_eq_some_iff.1 e).1
  simp [Heap.put, this]

theorem put_get_other {h : Heap} {a b : Addr} {c : Cell} (hne : b ≠ a) : (h.put a c).cells[b]? = h.cells[b]? := by
  simp [Heap.put, Ne.symm hne]

/-- What an assignment does: it fails and changes nothing, or replaces one field of one object by an accepted
value. -/
theorem setH_cases {T : Table} {N : Nat} {o : HVal} {name : Str} {v : HVal} {h : Heap} {r : Except Exn HVal} {h' : Heap}
    (he : setH T N o name v h = (r, h')) :
    (∃ e, r = .error e ∧ h' = h) ∨
    ∃ a c fs f w, o = .ref a ∧ h.cells[a]? = some (.inst c fs) ∧ f ∈ (T c).fields ∧ f.name = name ∧
      (f.kind ≠ .list → Accepts T h f v w) ∧ (f.kind = .list → w = v) ∧ r = .ok HVal.none ∧
      h' = h.put a (.inst c (Dict.set fs name w)) := by
  unfold setH at he
  split at he
  · next a =>
    split at he
    · next c fs e =>
      rcases andThen_eq he with ⟨f, hf, he⟩ | ⟨e, _, he⟩
      · simp only at hf he
        rcases andThen_eq he with ⟨w, hw, he⟩ | ⟨e, _, he⟩
        · simp only at hw he
          injection he with hr hh; subst hr hh
          obtain ⟨h1, h2⟩ := findField_ok hf
          exact .inr ⟨a, c, fs, f, w, rfl, e, h1, h2, fun hk => acceptH_accepts hk hw, fun hk => acceptH_list hk hw, rfl, rfl⟩
        · injection he with hr hh; exact .inl ⟨e, hr, hh⟩
      · injection he with hr hh; exact .inl ⟨e, hr, hh⟩
    · injection he with hr hh; exact .inl ⟨_, hr.symm, hh.symm⟩
  · injection he with hr hh; exact .inl ⟨_, hr.symm, hh.symm⟩

/-- What an append does. -/
theorem appendH_cases {T : Table} {N : Nat} {l v : HVal} {h : Heap} {r : Except Exn HVal} {h' : Heap}
    (he : appendH T N l v h = (r, h')) :
    (∃ e, r = .error e ∧ h' = h) ∨
    ∃ a items, l = .ref a ∧ r = .ok HVal.none ∧
      ((∃ f w, h.cells[a]? = some (.list (some f) items) ∧ Accepts T h f v w ∧
          (∀ m, f.maxOccurs = some (.int m) → (items.length : Int) + 1 ≤ m) ∧
          h' = h.put a (.list (some f) (items ++ [w]))) ∨
        h.cells[a]? = some (.list none items) ∧ h' = h.put a (.list none (items ++ [v]))) := by
  unfold appendH at he
  split at he
  · next a =>
    split at he
    · next f items e =>
      rcases andThen_eq he with ⟨_, hf, he⟩ | ⟨e, _, he⟩
      · simp only at hf he
        rcases andThen_eq he with ⟨w, hw, he⟩ | ⟨e, _, he⟩
        · simp only at hw he
          rcases andThen_eq he with ⟨_, hm, he⟩ | ⟨e, _, he⟩
          · simp only at hm he
            injection he with hr hh; subst hr hh
            refine .inr ⟨a, items, rfl, rfl, .inl ⟨f, w, e, acceptItemH_accepts hw, ?_, rfl⟩⟩
            intro m hmm
            rw [hmm] at hm
            simp only [ifGiven] at hm
            rw [raiseIf_eq_ok] at hm
            simp only [Bound.exceeded, decide_eq_false_iff_not] at hm
            omega
          · injection he with hr hh; exact .inl ⟨e, hr, hh⟩
        · injection he with hr hh; exact .inl ⟨e, hr, hh⟩
      · injection he with hr hh; exact .inl ⟨e, hr, hh⟩
    · next items e =>
      injection he with hr hh
      exact .inr ⟨a, items, rfl, hr.symm, .inr ⟨e, hh.symm⟩⟩
    · injection he with hr hh; exact .inl ⟨_, hr.symm, hh.symm⟩
  · injection he with hr hh; exact .inl ⟨_, hr.symm, hh.symm⟩

theorem keeps_put_inst {h : Heap} {a : Addr} {c : ClsId} {fs fs' : List (Str × HVal)}
    (e : h.cells[a]? = some (.inst c fs)) : KeepsClasses h (h.put a (.inst c fs')) := by
  intro b c' gs eb
  by_cases hb : b = a
  · subst hb; rw [e] at eb; injection eb with eb; injection eb with e1 _; subst e1
    exact ⟨fs', put_get_self e⟩
  · exact ⟨gs, by rw [put_get_other hb]; exact eb⟩

theorem keeps_put_list {h : Heap} {a : Addr} {o o' : Option Field} {is is' : List HVal}
    (e : h.cells[a]? = some (.list o is)) : KeepsClasses h (h.put a (.list o' is')) := by
  intro b c' gs eb
  by_cases hb : b = a
  · subst hb; rw [e] at eb; injection eb with eb; cases eb
  · exact ⟨gs, by rw [put_get_other hb]; exact eb⟩

theorem good_put_list {T : Table} {h : Heap} (hg : Good T h) {a : Addr} {o o' : Option Field} {is is' : List HVal}
    (e : h.cells[a]? = some (.list o is)) : Good T (h.put a (.list o' is')) := by
  intro b c fs eb
  by_cases hb : b = a
  · subst hb; rw [put_get_self e] at eb; injection eb with eb; cases eb
  · rw [put_get_other hb] at eb
    obtain ⟨h1, h2⟩ := hg b c fs eb
    refine ⟨h1, fun f hf hk => ?_⟩
    obtain ⟨u, v, hv, ha⟩ := h2 f hf hk
    exact ⟨u, v, hv, ha.mono (keeps_put_list e)⟩

theorem good_set {T : Table} (hT : T.Wf) {N : Nat} {o : HVal} {name : Str} {v : HVal} {h : Heap} {r : Except Exn HVal}
    {h' : Heap} (he : setH T N o name v h = (r, h')) : (Good T h → Good T h') ∧ KeepsClasses h h' := by
  rcases setH_cases he with ⟨e, _, rfl⟩ | ⟨a, c, fs, f, w, rfl, e, hf, rfl, ha, _, rfl, rfl⟩
  · exact ⟨id, .refl _⟩
  · refine ⟨fun hg => ?_, keeps_put_inst e⟩
    intro b c' gs eb
    have hm := keeps_put_inst (fs' := Dict.set fs f.name w) e
    by_cases hb : b = a
    · subst hb
      rw [put_get_self e] at eb
      injection eb with eb
      injection eb with e1 e2; subst e1 e2
      obtain ⟨h1, h2⟩ := hg _ _ _ e
      refine ⟨?_, fun g hgf hk => ?_⟩
      · rw [keys_set _ _ _ (by rw [h1]; exact List.mem_map.2 ⟨f, hf, rfl⟩)]; exact h1
      · by_cases hn : g.name = f.name
        · have : g = f := name_inj (hT c) hgf hf hn
          subst this
          exact ⟨v, w, get_set_self _ _ _, (ha hk).mono hm⟩
        · obtain ⟨u, v', hv, ha'⟩ := h2 g hgf hk
          exact ⟨u, v', by rw [get_set_other _ _ _ _ hn]; exact hv, ha'.mono hm⟩
    · rw [put_get_other hb] at eb
      obtain ⟨h1, h2⟩ := hg b c' gs eb
      refine ⟨h1, fun g hgf hk => ?_⟩
      obtain ⟨u, v', hv, ha'⟩ := h2 g hgf hk
      exact ⟨u, v', hv, ha'.mono hm⟩

theorem good_init {T : Table} (hT : T.Wf) {N : Nat} {o : HVal} (kw : List (Str × HVal)) :
    ∀ {h : Heap} {r : Except Exn HVal} {h' : Heap}, initH T N o kw h = (r, h') →
      (Good T h → Good T h') ∧ KeepsClasses h h' := by
  induction kw with
  | nil =>
    intro h r h' he
    simp only [initH, Prod.mk.injEq] at he
    obtain ⟨_, rfl⟩ := he
    exact ⟨id, .refl _⟩
  | cons p kw ih =>
    obtain ⟨k, v⟩ := p
    intro h r h' he
    rw [initH] at he
    have hs := good_set hT (N := N) (o := o) (name := k) (v := v) (h := h) rfl
    rcases andThen_eq he with ⟨_, _, he⟩ | ⟨e, _, he⟩
    · have := ih he
      exact ⟨this.1 ∘ hs.1, hs.2.trans this.2⟩
    · injection he with _ he; subst he
      exact hs

/-- Every operation preserves the invariant. -/
theorem good_run {T : Table} (hT : T.Wf) {did : ClsId → Str → Nat} {N : Nat} {op : Op} {h : Heap}
    {r : Except Exn HVal} {h' : Heap} (he : op.run T did N h = (r, h')) : (Good T h → Good T h') ∧ KeepsClasses h h' := by
  cases op with
  | new c kw =>
    rw [Op.run] at he
    have hb := builds_new hT (did := did) N c h _ _ rfl
    rcases andThen_eq he with ⟨o, _, he⟩ | ⟨e, _, he⟩
    · have := good_init hT kw he
      exact ⟨this.1 ∘ hb.good, (prefix_keeps hb.pre).trans this.2⟩
    · injection he with _ he; subst he
      exact ⟨hb.good, prefix_keeps hb.pre⟩
  | set o name v => exact good_set hT he
  | append l v =>
    rcases appendH_cases he with ⟨e, _, rfl⟩ | ⟨a, items, rfl, rfl, ⟨f, w, e, _, _, rfl⟩ | ⟨e, rfl⟩⟩
    · exact ⟨id, .refl _⟩
    · exact ⟨fun hg => good_put_list hg e, keeps_put_list e⟩
    · exact ⟨fun hg => good_put_list hg e, keeps_put_list e⟩
  | list items =>
    simp only [Op.run, Prod.mk.injEq] at he
    obtain ⟨_, rfl⟩ := he
    exact ⟨fun hg => good_alloc_list hg _ _, prefix_keeps (alloc_prefix _ _)⟩
  | raw l items =>
    simp only [Op.run] at he
    split at he
    · split at he
      · next e =>
        injection he with _ he; subst he
        exact ⟨fun hg => good_put_list hg e, keeps_put_list e⟩
      · injection he with _ he; subst he; exact ⟨id, .refl _⟩
    · injection he with _ he; subst he; exact ⟨id, .refl _⟩

theorem runOps_cons {T : Table} {did : ClsId → Str → Nat} {N : Nat} (op : Op) (ops : List Op) (h : Heap) :
    runOps T did N (op :: ops) h = ((op, (op.run T did N h).1) :: (runOps T did N ops (op.run T did N h).2).1,
      (runOps T did N ops (op.run T did N h).2).2) := rfl

theorem good_runOps {T : Table} (hT : T.Wf) {did : ClsId → Str → Nat} {N : Nat} (ops : List Op) :
    ∀ h, (Good T h → Good T (runOps T did N ops h).2) ∧ KeepsClasses h (runOps T did N ops h).2 := by
  induction ops with
  | nil => intro h; exact ⟨id, .refl _⟩
  | cons op ops ih =>
    intro h
    rw [runOps_cons]
    have h1 := good_run hT (did := did) (N := N) (op := op) (h := h) rfl
    have h2 := ih (op.run T did N h).2
    exact ⟨h2.1 ∘ h1.1, h1.2.trans h2.2⟩

end Soapfish
