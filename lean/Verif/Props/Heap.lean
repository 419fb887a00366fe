import Verif.HeapLemmas
import Verif.Examples
import Verif.Props.Numbers
/-
Properties of histories of operations: C18, C19, C20, C35.
-/
namespace Soapfish

/-! ### C18: fields hold accepted values -/

/-- C18. After any history (with failing operations or not), every field of every instance that is not a list holds a
value its declaration accepts. -/
theorem C18_fields_accepted (T : Table) (hT : T.Wf) (did : ClsId → Str → Nat) (N : Nat) (ops : List Op) (a : Addr)
    (c : ClsId) (fs : List (Str × HVal)) (h : (heapAfter T did N ops).cells[a]? = some (.inst c fs)) (f : Field)
    (hf : f ∈ (T c).fields) (hk : f.kind ≠ .list) :
    ∃ u v, Dict.get? fs f.name = some v ∧ Accepts T (heapAfter T did N ops) f u v :=
  (((good_runOps hT ops {}).1 (good_empty T)) a c fs h).2 f hf hk

/-- C18. A value that was accepted is accepted again, unchanged (for Decimal see C16). -/
theorem C18_accepted_unchanged (T : Table) (h : Heap) (f : Field) (u v : HVal) (ha : Accepts T h f u v)
    (hd : ∀ x, f.type ≠ .simple (.decimal x)) : Accepts T h f v v := by
  cases ha with
  | nil h1 => exact .nil h1
  | simple h1 h2 h3 =>
    refine .simple (by simp) h2 (C06_accept_idempotent _ _ _ h3 fun x hx => ?_)
    exact absurd (by rw [h2, hx]) (hd x)
  | none h1 => exact .none h1
  | inst h1 h2 h3 => exact .inst h1 h2 h3
  | header h1 h2 h3 => exact .header h1 h2 h3

/-- C18. A failing assignment changes nothing at all. -/
theorem C18_failing_assignment (T : Table) (did : ClsId → Str → Nat) (N : Nat) (o : HVal) (name : Str) (v : HVal)
    (h h' : Heap) (e : Exn) (he : (Op.set o name v).run T did N h = (.error e, h')) : h' = h := by
  rcases setH_cases he with ⟨_, _, rfl⟩ | ⟨_, _, _, _, _, _, _, _, _, _, _, hr, _⟩
  · rfl
  · cases hr

/-- C18. A successful assignment changes the named field of the object, to an accepted value, and nothing else. -/
theorem C18_assignment (T : Table) (did : ClsId → Str → Nat) (N : Nat) (o : HVal) (name : Str) (v x : HVal)
    (h h' : Heap) (he : (Op.set o name v).run T did N h = (.ok x, h')) :
    ∃ a c fs fs' f w, o = .ref a ∧ h.cells[a]? = some (.inst c fs) ∧ h'.cells[a]? = some (.inst c fs') ∧
      f ∈ (T c).fields ∧ f.name = name ∧ (if f.kind = .list then w = v else Accepts T h f v w) ∧
      Dict.get? fs' name = some w ∧ (∀ n, n ≠ name → Dict.get? fs' n = Dict.get? fs n) ∧
      ∀ b, b ≠ a → h'.cells[b]? = h.cells[b]? := by
  rcases setH_cases he with ⟨_, hr, _⟩ | ⟨a, c, fs, f, w, ho, e, hf, hn, h1, h2, hr, rfl⟩
  · cases hr
  · refine ⟨a, c, fs, Dict.set fs name w, f, w, ho, e, put_get_self e, hf, hn, ?_, get_set_self _ _ _,
      fun n hne => get_set_other _ _ _ _ hne, fun b hb => put_get_other hb⟩
    split
    · next hk => exact h2 hk
    · next hk => exact h1 hk

/-! ### C19: lists -/

theorem all2_mono {α β : Type} {R S : α → β → Prop} {as : List α} {bs : List β} (h : All2 R as bs)
    (hi : ∀ a b, R a b → S a b) : All2 S as bs := by
  induction h with
  | nil => exact .nil
  | cons h1 _ ih => exact .cons (hi _ _ h1) ih

theorem all2_snoc {α β : Type} {R : α → β → Prop} {as : List α} {bs : List β} (h : All2 R as bs) {a : α} {b : β}
    (hab : R a b) : All2 R (as ++ [a]) (bs ++ [b]) := by
  induction h with
  | nil => exact .cons hab .nil
  | cons h1 _ ih => exact .cons h1 ih

theorem appended_cons (a : Addr) (e : Op × Except Exn HVal) (log : List (Op × Except Exn HVal)) :
    appended a (e :: log) = appended a [e] ++ appended a log := by
  obtain ⟨op, r⟩ := e
  cases op with
  | append l v =>
    cases l with
    | ref b =>
      cases r with
      | ok x => by_cases hb : b = a <;> simp [appended, hb]
      | error x => simp [appended]
    | _ => simp [appended]
  | _ => simp [appended]

/-- The list at `a` belongs to `f` and holds the accepted images of `vs`, or there is no object at `a` yet. -/
def ListState (T : Table) (h : Heap) (a : Addr) (f : Field) (vs : List HVal) : Prop :=
  (h.cells.length ≤ a ∧ vs = []) ∨ ∃ items, h.cells[a]? = some (.list (some f) items) ∧ All2 (Accepts T h f) vs items ∧
    (∀ m, f.maxOccurs = some (.int m) → items = [] ∨ (items.length : Int) ≤ m)

/-- Assignments do not touch lists. -/
theorem set_lists {T : Table} {N : Nat} {o : HVal} {name : Str} {v : HVal} {h : Heap} {r : Except Exn HVal} {h' : Heap}
    (he : setH T N o name v h = (r, h')) : h'.cells.length = h.cells.length ∧
      ∀ (a : Addr) ow items, h'.cells[a]? = some (.list ow items) ↔ h.cells[a]? = some (.list ow items) := by
  rcases setH_cases he with ⟨e, _, rfl⟩ | ⟨a, c, fs, f, w, rfl, e, hf, rfl, ha, _, rfl, rfl⟩
  · exact ⟨rfl, fun _ _ _ => Iff.rfl⟩
  · refine ⟨by simp [Heap.put], fun b ow items => ?_⟩
    by_cases hb : b = a
    · subst hb; rw [put_get_self e, e]; simp
    · rw [put_get_other hb]

theorem init_lists {T : Table} {N : Nat} {o : HVal} (kw : List (Str × HVal)) :
    ∀ {h : Heap} {r : Except Exn HVal} {h' : Heap}, initH T N o kw h = (r, h') → h'.cells.length = h.cells.length ∧
      ∀ (a : Addr) ow items, h'.cells[a]? = some (.list ow items) ↔ h.cells[a]? = some (.list ow items) := by
  induction kw with
  | nil =>
    intro h r h' he
    simp only [initH, Prod.mk.injEq] at he
    obtain ⟨_, rfl⟩ := he
    exact ⟨rfl, fun _ _ _ => Iff.rfl⟩
  | cons p kw ih =>
    obtain ⟨k, v⟩ := p
    intro h r h' he
    rw [initH] at he
    have hs := set_lists (T := T) (N := N) (o := o) (name := k) (v := v) (h := h) rfl
    rcases andThen_eq he with ⟨_, _, he⟩ | ⟨e, _, he⟩
    · have := ih he
      exact ⟨this.1.trans hs.1, fun a ow items => (this.2 a ow items).trans (hs.2 a ow items)⟩
    · injection he with _ he; subst he
      exact hs

/-- What one operation does to a list. -/
theorem list_step {T : Table} (hT : T.Wf) {did : ClsId → Str → Nat} {N : Nat} {op : Op} {h : Heap} {a : Addr} {f : Field}
    {vs : List HVal} (hraw : ∀ items, op ≠ .raw (.ref a) items) (hs : ListState T h a f vs)
    {final : List HVal} {hf : Heap} (hfin : hf.cells[a]? = some (.list (some f) final))
    (hkeep : ∀ ow items, (op.run T did N h).2.cells[a]? = some (.list ow items) → ow = some f)
    (hinst : ∀ c fs, (op.run T did N h).2.cells[a]? ≠ some (.inst c fs)) :
    ListState T (op.run T did N h).2 a f (vs ++ appended a [(op, (op.run T did N h).1)]) := by
  have hkc : KeepsClasses h (op.run T did N h).2 := (good_run hT (did := did) (N := N) (op := op) (h := h) rfl).2
  -- operations that add nothing to the list
  have hsame : appended a [(op, (op.run T did N h).1)] = [] → (∀ items, h.cells[a]? = some (.list (some f) items) →
      (op.run T did N h).2.cells[a]? = some (.list (some f) items)) →
      (h.cells.length ≤ a → ∀ items, (op.run T did N h).2.cells[a]? = some (.list (some f) items) → items = []) →
      ListState T (op.run T did N h).2 a f (vs ++ appended a [(op, (op.run T did N h).1)]) := by
    intro h0 h1 h2
    rw [h0, List.append_nil]
    rcases hs with ⟨hl, rfl⟩ | ⟨items, e, ha, hm⟩
    · cases hc : (op.run T did N h).2.cells[a]? with
      | none => exact .inl ⟨List.getElem?_eq_none_iff.1 hc, rfl⟩
      | some x =>
        cases x with
        | inst c fs => exact absurd hc (hinst c fs)
        | list ow items =>
          obtain rfl := hkeep ow items hc
          obtain rfl := h2 hl items hc
          exact .inr ⟨[], hc, .nil, fun _ _ => .inl rfl⟩
    · exact .inr ⟨items, h1 items e, all2_mono ha fun _ _ hx => hx.mono hkc, hm⟩
  cases op with
  | new c kw =>
    refine hsame (by simp [appended]) ?_ ?_
    · intro items e
      rw [Op.run]
      have hb := builds_new hT (did := did) N c h _ _ rfl
      generalize hx : Act.andThen (newH T did N c h) (fun o h => initH T N o kw h) = x
      obtain ⟨r, h'⟩ := x
      rcases andThen_eq hx with ⟨o, _, hx⟩ | ⟨_, _, hx⟩
      · exact ((init_lists kw hx).2 a _ _).2 (prefix_get hb.pre e)
      · injection hx with _ hx; subst hx
        exact prefix_get hb.pre e
    · intro hl items
      rw [Op.run]
      have hb := builds_new hT (did := did) N c h _ _ rfl
      generalize hx : Act.andThen (newH T did N c h) (fun o h => initH T N o kw h) = x
      obtain ⟨r, h'⟩ := x
      intro e
      rcases andThen_eq hx with ⟨o, _, hx⟩ | ⟨_, _, hx⟩
      · exact hb.fresh a _ _ hl (((init_lists kw hx).2 a _ _).1 e)
      · injection hx with _ hx; subst hx
        exact hb.fresh a _ _ hl e
  | set o name v =>
    have hsl := set_lists (r := (setH T N o name v h).1) (h' := (setH T N o name v h).2) (Prod.eta _).symm
    refine hsame (by simp [appended]) (fun items e => (hsl.2 _ _ _).2 e) fun hl items e => ?_
    rw [List.getElem?_eq_none (by rw [Op.run, hsl.1]; exact hl)] at e
    cases e
  | list items =>
    refine hsame (by simp [appended]) (fun items e => prefix_get (alloc_prefix _ _) e) fun hl is e => ?_
    simp only [Op.run, alloc_cells] at e
    rcases get_append e with e | ⟨_, e⟩
    · rw [List.getElem?_eq_none hl] at e; cases e
    · injection e with e _; cases e
  | raw l items =>
    have hother : ∀ b, b = a → (Op.run T did N (.raw l items) h).2.cells[b]? = h.cells[b]? := by
      intro b hba
      simp only [Op.run]
      split
      · next b' =>
        have hb : b ≠ b' := by rintro rfl; subst hba; exact hraw items rfl
        split
        · exact put_get_other hb
        · rfl
      · rfl
    refine hsame (by simp [appended]) (fun is e => by rw [hother a rfl]; exact e) fun hl is e => ?_
    rw [hother a rfl, List.getElem?_eq_none hl] at e
    cases e
  | append l v =>
    rw [Op.run] at *
    generalize hx : appendH T N l v h = x at *
    obtain ⟨r, h'⟩ := x
    rcases appendH_cases hx with ⟨e, rfl, rfl⟩ | ⟨b, items, rfl, rfl, hb⟩
    · refine hsame (by simp [appended]) (fun _ e => e) fun hl is e => ?_
      simp only at e
      rw [List.getElem?_eq_none hl] at e; cases e
    · by_cases hba : b = a
      · subst hba
        have happ : appended b [(Op.append (.ref b) v, (Except.ok HVal.none : Except Exn HVal))] = [v] := by
          simp [appended]
        simp only [happ]
        rcases hs with ⟨hl, rfl⟩ | ⟨is, e, ha, hm⟩
        · rcases hb with ⟨f', w, e, _⟩ | ⟨e, _⟩ <;> (rw [List.getElem?_eq_none hl] at e; cases e)
        · rcases hb with ⟨f', w, e', hacc, hmax, rfl⟩ | ⟨e', _⟩
          · rw [e] at e'; injection e' with e'; injection e' with e1 e2; injection e1 with e1; subst e1 e2
            refine .inr ⟨is ++ [w], put_get_self e, all2_snoc (all2_mono ha fun _ _ hx => hx.mono (keeps_put_list e)) (hacc.mono (keeps_put_list e)),
              fun m hmm => .inr ?_⟩
            simpa using hmax m hmm
          · rw [e] at e'; cases e'
      · refine hsame (by simp [appended, hba]) ?_ ?_
        · intro is e
          rcases hb with ⟨f', w, _, _, _, rfl⟩ | ⟨_, rfl⟩ <;> (simp only; rw [put_get_other (Ne.symm hba)]; exact e)
        · intro hl is e
          have hl' : h'.cells.length = h.cells.length := by
            rcases hb with ⟨f', w, _, _, _, rfl⟩ | ⟨_, rfl⟩ <;> simp [Heap.put]
          simp only at e
          rw [List.getElem?_eq_none (by rw [hl']; exact hl)] at e
          cases e

/-- A list never becomes another kind of object or another ListElement's list. -/
theorem owner_step {T : Table} (hT : T.Wf) {did : ClsId → Str → Nat} {N : Nat} {op : Op} {h : Heap} {a : Addr}
    {ow : Option Field} {items : List HVal} (e : h.cells[a]? = some (.list ow items)) :
    ∃ items', (op.run T did N h).2.cells[a]? = some (.list ow items') := by
  cases op with
  | new c kw =>
    rw [Op.run]
    have hb := builds_new hT (did := did) N c h _ _ rfl
    generalize hx : Act.andThen (newH T did N c h) (fun o h => initH T N o kw h) = x
    obtain ⟨r, h'⟩ := x
    rcases andThen_eq hx with ⟨o, _, hx⟩ | ⟨_, _, hx⟩
    · exact ⟨items, ((init_lists kw hx).2 a _ _).2 (prefix_get hb.pre e)⟩
    · injection hx with _ hx; subst hx
      exact ⟨items, prefix_get hb.pre e⟩
  | set o name v => exact ⟨items, ((set_lists rfl).2 _ _ _).2 e⟩
  | list is => exact ⟨items, prefix_get (alloc_prefix _ _) e⟩
  | raw l is =>
    simp only [Op.run]
    split
    · next b =>
      split
      · next ow' is' e' =>
        by_cases hb : a = b
        · subst hb; rw [e] at e'; injection e' with e'; injection e' with e1 e2; subst e1
          exact ⟨_, put_get_self e⟩
        · exact ⟨items, by rw [put_get_other hb]; exact e⟩
      · exact ⟨items, e⟩
    · exact ⟨items, e⟩
  | append l v =>
    rw [Op.run]
    generalize hx : appendH T N l v h = x
    obtain ⟨r, h'⟩ := x
    rcases appendH_cases hx with ⟨_, _, rfl⟩ | ⟨b, is, rfl, _, hb⟩
    · exact ⟨items, e⟩
    · by_cases hba : a = b
      · subst hba
        rcases hb with ⟨f, w, e', _, _, rfl⟩ | ⟨e', rfl⟩ <;>
          (rw [e] at e'; injection e' with e'; injection e' with e1 e2; subst e1; exact ⟨_, put_get_self e⟩)
      · rcases hb with ⟨f, w, _, _, _, rfl⟩ | ⟨_, rfl⟩ <;> exact ⟨items, by rw [put_get_other hba]; exact e⟩

theorem owner_runOps {T : Table} (hT : T.Wf) {did : ClsId → Str → Nat} {N : Nat} (ops : List Op) : ∀ {h : Heap} {a : Addr}
    {ow : Option Field} {items : List HVal}, h.cells[a]? = some (.list ow items) →
      ∃ items', (runOps T did N ops h).2.cells[a]? = some (.list ow items') := by
  induction ops with
  | nil => intro h a ow items e; exact ⟨items, e⟩
  | cons op ops ih =>
    intro h a ow items e
    obtain ⟨is, e⟩ := owner_step hT (did := did) (N := N) (op := op) e
    exact ih e

theorem list_runOps {T : Table} (hT : T.Wf) {did : ClsId → Str → Nat} {N : Nat} (a : Addr) (f : Field) (final : List HVal)
    (ops : List Op) : ∀ (h : Heap) (vs : List HVal), (∀ items, .raw (.ref a) items ∉ ops) → ListState T h a f vs →
      (runOps T did N ops h).2.cells[a]? = some (.list (some f) final) →
      ListState T (runOps T did N ops h).2 a f (vs ++ appended a (runOps T did N ops h).1) := by
  induction ops with
  | nil => intro h vs _ hs _; simpa [runOps, appended] using hs
  | cons op ops ih =>
    intro h vs hraw hs hfin
    have hfin' : (runOps T did N ops (op.run T did N h).2).2.cells[a]? = some (.list (some f) final) := hfin
    have h1 := list_step hT (did := did) (N := N) (op := op) (fun items hx => hraw items (by rw [← hx]; simp)) hs hfin'
      (by
        intro ow items e
        obtain ⟨_, e'⟩ := owner_runOps hT (did := did) (N := N) ops e
        rw [hfin'] at e'; injection e' with e'; injection e' with e1 _; exact e1.symm)
      (by
        intro c fs e
        obtain ⟨_, e'⟩ := (good_runOps hT (did := did) (N := N) ops _).2 a c fs e
        rw [hfin'] at e'; cases e')
    have h2 := ih _ _ (fun items hx => hraw items (List.mem_cons_of_mem _ hx)) h1 hfin'
    rw [runOps_cons, appended_cons]
    rw [List.append_assoc] at h2
    exact h2

/-- C19. After any history of operations (failing or not) in which the list of a ListElement is only changed by
`append`, it holds exactly the accepted images of the successfully appended values, in the order of the calls, and no
more than `maxOccurs` of them. -/
theorem C19_list_content (T : Table) (hT : T.Wf) (did : ClsId → Str → Nat) (N : Nat) (ops : List Op) (a : Addr) (f : Field)
    (items : List HVal) (h : (heapAfter T did N ops).cells[a]? = some (.list (some f) items))
    (hraw : ∀ items, Op.raw (.ref a) items ∉ ops) :
    All2 (Accepts T (heapAfter T did N ops) f) (appended a (logOf T did N ops)) items ∧
      ∀ m, f.maxOccurs = some (.int m) → items = [] ∨ (items.length : Int) ≤ m := by
  have := list_runOps hT (did := did) (N := N) a f items ops {} [] hraw (.inl ⟨Nat.zero_le _, rfl⟩) h
  rcases this with ⟨hl, _⟩ | ⟨is, e, ha, hm⟩
  · have h' := (List.getElem?_eq_some_iff.1 h).1
    exact absurd h' (Nat.not_lt.2 hl)
  · have e' : (heapAfter T did N ops).cells[a]? = some (.list (some f) is) := e
    rw [h] at e'; injection e' with e'; injection e' with _ e'; subst e'
    exact ⟨ha, hm⟩

/-- C19. A failing append changes nothing at all. -/
theorem C19_failing_append (T : Table) (did : ClsId → Str → Nat) (N : Nat) (l v : HVal) (h h' : Heap) (e : Exn)
    (he : (Op.append l v).run T did N h = (.error e, h')) : h' = h := by
  rcases appendH_cases he with ⟨_, _, rfl⟩ | ⟨_, _, _, hr, _⟩
  · rfl
  · cases hr

/-! ### C20: undeclared names -/

theorem findField_none {L : List Field} {name : Str} (h : name ∉ L.map (·.name)) : findField L name = .error .valueError := by
  induction L with
  | nil => rfl
  | cons f L ih =>
    simp only [List.map_cons, List.mem_cons, not_or] at h
    rw [findField, if_neg (Ne.symm h.1)]
    exact ih h.2

/-- C20. The attribute names of every instance are exactly the declared ones, after any history. -/
theorem C20_names (T : Table) (hT : T.Wf) (did : ClsId → Str → Nat) (N : Nat) (ops : List Op) (a : Addr)
    (c : ClsId) (fs : List (Str × HVal)) (h : (heapAfter T did N ops).cells[a]? = some (.inst c fs)) :
    fs.map (·.1) = (T c).fields.map (·.name) :=
  (((good_runOps hT ops {}).1 (good_empty T)) a c fs h).1

/-- C20. Assigning to a name the class does not declare raises ValueError and changes nothing. -/
theorem C20_undeclared_assignment (T : Table) (did : ClsId → Str → Nat) (N : Nat) (a : Addr) (c : ClsId)
    (fs : List (Str × HVal)) (h : Heap) (hc : h.cells[a]? = some (.inst c fs)) (name : Str) (v : HVal)
    (hn : ∀ f ∈ (T c).fields, f.name ≠ name) :
    (Op.set (.ref a) name v).run T did N h = (.error .valueError, h) := by
  simp only [Op.run, setH, hc]
  rw [findField_none (by simpa using fun f hf => hn f hf)]
  rfl

theorem new_inst {T : Table} (hT : T.Wf) {did : ClsId → Str → Nat} {n : Nat} {c : ClsId} {h : Heap} {o : HVal} {h' : Heap}
    (he : newH T did n c h = (.ok o, h')) : ∃ a fs, o = .ref a ∧ h'.cells[a]? = some (.inst c fs) ∧ h.cells.length ≤ a := by
  cases n with
  | zero => cases he
  | succ n =>
    rw [newH] at he
    obtain ⟨hb, _⟩ := builds_fields (N := n) (did := did c) (builds_new hT (did := did) n) (T c).fields (h := h) rfl
    rcases andThen_eq he with ⟨fs, hfs, he⟩ | ⟨e, _, he⟩
    · simp only [Prod.mk.injEq, Except.ok.injEq] at he
      obtain ⟨rfl, rfl⟩ := he
      refine ⟨_, fs, rfl, ?_, hb.pre.length_le⟩
      rw [alloc_cells]; simp [Heap.alloc]
    · injection he with he _; cases he

theorem init_frame {T : Table} {N : Nat} {a : Addr} {c : ClsId} (kw : List (Str × HVal)) :
    ∀ {h : Heap} {fs : List (Str × HVal)} {r : Except Exn HVal} {h' : Heap}, h.cells[a]? = some (.inst c fs) →
      initH T N (.ref a) kw h = (r, h') →
      (∀ b, b ≠ a → h'.cells[b]? = h.cells[b]?) ∧ ((∃ p ∈ kw, ∀ f ∈ (T c).fields, f.name ≠ p.1) → ∃ e, r = .error e) := by
  induction kw with
  | nil =>
    intro h fs r h' _ he
    simp only [initH, Prod.mk.injEq] at he
    obtain ⟨_, rfl⟩ := he
    exact ⟨fun _ _ => rfl, by simp⟩
  | cons p kw ih =>
    obtain ⟨k, v⟩ := p
    intro h fs r h' hc he
    rw [initH] at he
    rcases andThen_eq he with ⟨x, hx, he⟩ | ⟨e, hx, he⟩
    · rcases setH_cases (T := T) (N := N) (o := .ref a) (name := k) (v := v) (h := h) (Prod.eta _).symm with
        ⟨e, h1, _⟩ | ⟨a', c', fs', f, w, h1, h2, h3, h4, _, _, _, h8⟩
      · rw [h1] at hx; cases hx
      · injection h1 with h1; subst h1
        rw [hc] at h2; injection h2 with h2; injection h2 with h2 h2'; subst h2 h2'
        rw [h8] at he
        obtain ⟨g1, g2⟩ := ih (put_get_self hc) he
        refine ⟨fun b hb => by rw [g1 b hb, put_get_other hb], ?_⟩
        rintro ⟨p, hp, hn⟩
        rcases List.mem_cons.1 hp with rfl | hp
        · exact absurd h4 (hn f h3)
        · exact g2 ⟨p, hp, hn⟩
    · injection he with h1 h2; subst h1 h2
      refine ⟨fun b hb => ?_, fun _ => ⟨e, rfl⟩⟩
      rcases setH_cases (T := T) (N := N) (o := .ref a) (name := k) (v := v) (h := h) (Prod.eta _).symm with
        ⟨e, _, h1⟩ | ⟨_, _, _, _, _, _, _, _, _, _, _, h7, _⟩
      · rw [h1]
      · rw [hx] at h7; cases h7

/-- C18, C20. Construction, whether it succeeds or fails, leaves every existing object as it was. -/
theorem C18_constructor_frame (T : Table) (hT : T.Wf) (did : ClsId → Str → Nat) (N : Nat) (c : ClsId)
    (kw : List (Str × HVal)) (h : Heap) (a : Addr) (ha : a < h.cells.length) :
    ((Op.new c kw).run T did N h).2.cells[a]? = h.cells[a]? := by
  rw [Op.run]
  have hb : Builds T h (newH T did N c h).2 := builds_new hT (did := did) N c h _ _ rfl
  obtain ⟨x, hx⟩ : ∃ x, h.cells[a]? = some x := ⟨_, List.getElem?_eq_some_iff.2 ⟨ha, rfl⟩⟩
  generalize hr : Act.andThen (newH T did N c h) (fun o h => initH T N o kw h) = r
  obtain ⟨r, h'⟩ := r
  rcases andThen_eq hr with ⟨o, ho, hr⟩ | ⟨_, _, hr⟩
  · obtain ⟨b, fs, rfl, hbc, hlb⟩ := new_inst hT (o := o) (h' := (newH T did N c h).2) (by rw [← ho])
    have hab : a ≠ b := Nat.ne_of_lt (Nat.lt_of_lt_of_le ha hlb)
    rw [(init_frame kw hbc hr).1 a hab, prefix_get hb.pre hx, hx]
  · injection hr with _ hr; subst hr
    rw [prefix_get hb.pre hx, hx]

/-- C20. Passing a name the class does not declare to the constructor makes it fail. -/
theorem C20_undeclared_argument (T : Table) (hT : T.Wf) (did : ClsId → Str → Nat) (N : Nat) (c : ClsId)
    (kw : List (Str × HVal)) (h : Heap) (p : Str × HVal) (hp : p ∈ kw) (hn : ∀ f ∈ (T c).fields, f.name ≠ p.1) :
    ∃ e, ((Op.new c kw).run T did N h).1 = .error e := by
  rw [Op.run]
  generalize hr : Act.andThen (newH T did N c h) (fun o h => initH T N o kw h) = r
  obtain ⟨r, h'⟩ := r
  rcases andThen_eq hr with ⟨o, ho, hr⟩ | ⟨e, _, hr⟩
  · obtain ⟨b, fs, rfl, hbc, hlb⟩ := new_inst hT (o := o) (h' := (newH T did N c h).2) (by rw [← ho])
    exact (init_frame kw hbc hr).2 ⟨p, hp, hn⟩
  · injection hr with hr _; exact ⟨e, hr⟩

/-! ### C35: separate instances -/

def Unowned (h : Heap) (l : Addr) : Prop :=
  ∀ (a : Addr) (c : ClsId) (fs : List (Str × HVal)) (n : Str), h.cells[a]? = some (.inst c fs) → (n, HVal.ref l) ∉ fs

def IsListAt (h : Heap) (l : Addr) : Prop := ∃ o items, h.cells[l]? = some (.list o items)

def NoLists (T : Table) (c : ClsId) : Prop := ∀ f ∈ (T c).fields, f.kind ≠ .list

/-- Every list belongs to at most one instance. -/
structure Own (T : Table) (h : Heap) : Prop where
  inside : ∀ (a : Addr) (c : ClsId) (fs : List (Str × HVal)) (n : Str) (l : Addr), h.cells[a]? = some (.inst c fs) → (n, HVal.ref l) ∈ fs → l < h.cells.length
  uniq : ∀ (a b : Addr) (c c' : ClsId) (fs fs' : List (Str × HVal)) (n n' : Str) (l : Addr), h.cells[a]? = some (.inst c fs) → h.cells[b]? = some (.inst c' fs') →
    (n, HVal.ref l) ∈ fs → (n', HVal.ref l) ∈ fs' → IsListAt h l → a = b
  decl : ∀ (a : Addr) (c : ClsId) (fs : List (Str × HVal)) (n : Str) (l : Addr), h.cells[a]? = some (.inst c fs) → (n, HVal.ref l) ∈ fs → IsListAt h l → ¬ NoLists T c
  prot : ∀ (d : Nat) (a : Addr), (d, a) ∈ h.protos → ∃ c fs, h.cells[a]? = some (.inst c fs) ∧ NoLists T c

theorem own_empty (T : Table) : Own T {} where
  inside := by intro a c fs n l h; simp at h
  uniq := by intro a b c c' fs fs' n n' l h; simp at h
  decl := by intro a c fs n l h; simp at h
  prot := by intro d a h; simp at h

theorem lt_of_get {h : Heap} {a : Addr} {x : Cell} (e : h.cells[a]? = some x) : a < h.cells.length :=
  (List.getElem?_eq_some_iff.1 e).1

theorem prefix_get_iff {h h' : Heap} (hp : h.cells <+: h'.cells) {a : Addr} (ha : a < h.cells.length) :
    h'.cells[a]? = h.cells[a]? := by
  obtain ⟨t, ht⟩ := hp
  rw [← ht, List.getElem?_append_left ha]

theorem listAt_prefix {h h' : Heap} (hp : h.cells <+: h'.cells) {a : Addr} (ha : a < h.cells.length) :
    IsListAt h' a ↔ IsListAt h a := by
  unfold IsListAt; rw [prefix_get_iff hp ha]

/-- New instances refer to new lists only. -/
def NewRefs (h h' : Heap) : Prop :=
  ∀ (b : Addr) c fs n l, h.cells.length ≤ b → h'.cells[b]? = some (.inst c fs) → (n, HVal.ref l) ∈ fs → IsListAt h' l →
    h.cells.length ≤ l

/-- What construction guarantees about ownership. -/
def KeepsOwn (T : Table) (h h' : Heap) : Prop := h.cells <+: h'.cells ∧ (Own T h → Own T h' ∧ NewRefs h h')

theorem KeepsOwn.refl (T : Table) (h : Heap) : KeepsOwn T h h := by
  refine ⟨List.prefix_refl _, fun ho => ⟨ho, ?_⟩⟩
  intro b c fs n l hb e
  rw [List.getElem?_eq_none hb] at e; cases e

theorem KeepsOwn.trans {T : Table} {h h' h'' : Heap} (h1 : KeepsOwn T h h') (h2 : KeepsOwn T h' h'') : KeepsOwn T h h'' := by
  refine ⟨h1.1.trans h2.1, fun ho => ?_⟩
  obtain ⟨o1, n1⟩ := h1.2 ho
  obtain ⟨o2, n2⟩ := h2.2 o1
  refine ⟨o2, ?_⟩
  intro b c fs n l hb e hm hl
  by_cases hlt : b < h'.cells.length
  · rw [prefix_get_iff h2.1 hlt] at e
    have hl' := o1.inside b c fs n l e hm
    exact n1 b c fs n l hb e hm ((listAt_prefix h2.1 hl').1 hl)
  · exact Nat.le_trans h1.1.length_le (n2 b c fs n l (Nat.le_of_not_lt hlt) e hm hl)

theorem unowned_prefix {T : Table} {h h' : Heap} (hk : KeepsOwn T h h') (ho : Own T h) {l : Addr} (hl : l < h.cells.length)
    (hlist : IsListAt h l) (hu : Unowned h l) : Unowned h' l := by
  intro a c fs n e hm
  by_cases hlt : a < h.cells.length
  · rw [prefix_get_iff hk.1 hlt] at e
    exact hu a c fs n e hm
  · have := (hk.2 ho).2 a c fs n l (Nat.le_of_not_lt hlt) e hm ((listAt_prefix hk.1 hl).2 hlist)
    exact absurd hl (Nat.not_lt.2 this)

theorem get_append_len (h : Heap) (c : Cell) : (h.cells ++ [c])[h.cells.length]? = some c := by simp

/-- A new instance that refers to new, unowned lists only. -/
theorem own_alloc_inst {T : Table} {h : Heap} (ho : Own T h) (c : ClsId) (fs : List (Str × HVal))
    (hfs : ∀ n l, (n, HVal.ref l) ∈ fs → l < h.cells.length ∧ (IsListAt h l → Unowned h l ∧ ¬ NoLists T c)) :
    Own T (h.alloc (.inst c fs)).2 := by
  have hp := alloc_prefix h (.inst c fs)
  have hcase : ∀ {a : Addr} {x}, (h.alloc (.inst c fs)).2.cells[a]? = some x →
      h.cells[a]? = some x ∨ (a = h.cells.length ∧ x = .inst c fs) := fun e => get_append e
  have hlen : (h.alloc (.inst c fs)).2.cells.length = h.cells.length + 1 := by simp [alloc_cells]
  constructor
  · intro a c' gs n l e hm
    rw [hlen]
    rcases hcase e with e | ⟨_, e⟩
    · exact Nat.lt_succ_of_lt (ho.inside a c' gs n l e hm)
    · injection e with e1 e2; subst e1 e2
      exact Nat.lt_succ_of_lt (hfs n l hm).1
  · intro a b c1 c2 gs gs' n n' l ea eb hma hmb hl
    rcases hcase ea with ea' | ⟨ha', ea'⟩ <;> rcases hcase eb with eb' | ⟨hb', eb'⟩
    · have := ho.inside a _ _ _ _ ea' hma
      exact ho.uniq a b _ _ _ _ _ _ l ea' eb' hma hmb ((listAt_prefix hp this).1 hl)
    · injection eb' with e1 e2; subst e1 e2
      have := ho.inside a _ _ _ _ ea' hma
      exact absurd hma (((hfs n' l hmb).2 ((listAt_prefix hp this).1 hl)).1 a _ _ _ ea')
    · injection ea' with e1 e2; subst e1 e2
      have := ho.inside b _ _ _ _ eb' hmb
      exact absurd hmb (((hfs n l hma).2 ((listAt_prefix hp this).1 hl)).1 b _ _ _ eb')
    · rw [ha', hb']
  · intro a c' gs n l e hm hl
    rcases hcase e with e | ⟨_, e⟩
    · have := ho.inside a _ _ _ _ e hm
      exact ho.decl a _ _ _ _ e hm ((listAt_prefix hp this).1 hl)
    · injection e with e1 e2; subst e1 e2
      have := (hfs n l hm).1
      exact ((hfs n l hm).2 ((listAt_prefix hp this).1 hl)).2
  · intro d a hd
    obtain ⟨c', gs, e, hn⟩ := ho.prot d a hd
    exact ⟨c', gs, prefix_get hp e, hn⟩

theorem own_alloc_list {T : Table} {h : Heap} (ho : Own T h) (o : Option Field) (items : List HVal) :
    Own T (h.alloc (.list o items)).2 ∧ NewRefs h (h.alloc (.list o items)).2 := by
  have hp := alloc_prefix h (.list o items)
  have hcase : ∀ {a : Addr} {c fs}, (h.alloc (.list o items)).2.cells[a]? = some (.inst c fs) →
      h.cells[a]? = some (.inst c fs) := fun e => by
    rcases get_append e with e | ⟨_, e⟩
    · exact e
    · cases e
  have hlen : (h.alloc (.list o items)).2.cells.length = h.cells.length + 1 := by simp [alloc_cells]
  refine ⟨⟨?_, ?_, ?_, ?_⟩, ?_⟩
  · intro a c' gs n l e hm
    rw [hlen]
    exact Nat.lt_succ_of_lt (ho.inside a c' gs n l (hcase e) hm)
  · intro a b c1 c2 gs gs' n n' l ea eb hma hmb hl
    have := ho.inside a _ _ _ _ (hcase ea) hma
    exact ho.uniq a b _ _ _ _ _ _ l (hcase ea) (hcase eb) hma hmb ((listAt_prefix hp this).1 hl)
  · intro a c' gs n l e hm hl
    have := ho.inside a _ _ _ _ (hcase e) hm
    exact ho.decl a _ _ _ _ (hcase e) hm ((listAt_prefix hp this).1 hl)
  · intro d a hd
    obtain ⟨c', gs, e, hn⟩ := ho.prot d a hd
    exact ⟨c', gs, prefix_get hp e, hn⟩
  · intro b c fs n l hb e
    exact absurd (lt_of_get (hcase e)) (Nat.not_lt.2 hb)

/-- What is known of an empty value. -/
def FreshVal (h h' : Heap) (f : Field) (v : HVal) : Prop :=
  ∀ l, v = .ref l → h.cells.length ≤ l ∧ l < h'.cells.length ∧ (IsListAt h' l → Unowned h' l ∧ f.kind = .list)

theorem own_protos {T : Table} {h : Heap} (ho : Own T h) {d : Nat} {a : Addr} {c : ClsId} {fs : List (Str × HVal)}
    (e : h.cells[a]? = some (.inst c fs)) (hn : NoLists T c) : Own T { h with protos := (d, a) :: h.protos } := by
  refine ⟨ho.inside, ho.uniq, ho.decl, ?_⟩
  intro d' a' hd
  rcases List.mem_cons.1 hd with hd | hd
  · injection hd with h1 h2; subst h2; exact ⟨c, fs, e, hn⟩
  · exact ho.prot d' a' hd

theorem mem_lookup {d : Nat} {a : Addr} {L : List (Nat × Addr)} (h : L.lookup d = some a) : (d, a) ∈ L := by
  induction L with
  | nil => cases h
  | cons p L ih =>
    obtain ⟨k, b⟩ := p
    rw [List.lookup] at h
    split at h
    · next hk => injection h with h; subst h; have := eq_of_beq hk; subst this; exact List.mem_cons_self
    · exact List.mem_cons_of_mem _ (ih h)

theorem own_emptyH {T : Table} {nw : ClsId → Act HVal} (hn : ∀ c h r h', nw c h = (r, h') → KeepsOwn T h h')
    (hi : ∀ c h o h', nw c h = (.ok o, h') → ∃ a fs, o = .ref a ∧ h'.cells[a]? = some (.inst c fs)) {did : Nat}
    {f : Field} (hf : f.kind = .ref → ∀ g, f.type = .complex g → NoLists T g)
    {h : Heap} {r : Except Exn HVal} {h' : Heap} (he : emptyH nw did f h = (r, h')) :
    KeepsOwn T h h' ∧ (Own T h → ∀ v, r = .ok v → FreshVal h h' f v) := by
  unfold emptyH at he
  have hstay : ∀ v, (∀ l, v ≠ HVal.ref l) → (Except.ok v, h) = (r, h') →
      KeepsOwn T h h' ∧ (Own T h → ∀ v, r = .ok v → FreshVal h h' f v) := by
    intro v hv he
    injection he with h1 h2; subst h1 h2
    refine ⟨.refl T h, fun _ v' hv' l hl => ?_⟩
    injection hv' with hv'; subst hv'
    exact absurd hl (hv l)
  split at he
  · next hk =>
    simp only [Prod.mk.injEq] at he
    obtain ⟨rfl, rfl⟩ := he
    refine ⟨⟨alloc_prefix _ _, fun ho => own_alloc_list ho _ _⟩, fun ho v hv l hl => ?_⟩
    injection hv with hv; subst hv; injection hl with hl; subst hl
    have hlen : (h.alloc (.list (some f) [])).2.cells.length = h.cells.length + 1 := by simp [alloc_cells]
    refine ⟨Nat.le_refl _, by rw [hlen]; exact Nat.lt_succ_self _, fun _ => ⟨?_, hk⟩⟩
    intro a c fs n e hm
    rcases get_append e with e | ⟨_, e⟩
    · exact absurd (ho.inside a c fs n _ e hm) (Nat.lt_irrefl _)
    · cases e
  · exact hstay _ (by simp) he
  · next hk =>
    split at he
    · next c hc =>
      -- the prototype
      have hpro : ∀ {r : Except Exn Addr} {h1 : Heap}, prototype did (nw c) h = (r, h1) → KeepsOwn T h h1 ∧
          (Own T h1 → ∀ a, r = .ok a → ∃ c fs, h1.cells[a]? = some (.inst c fs) ∧ NoLists T c) := by
        intro r h1 hp
        unfold prototype at hp
        split at hp
        · next a ha =>
          injection hp with e1 e2; subst e1 e2
          refine ⟨.refl T _, fun ho a' ha' => ?_⟩
          injection ha' with ha'; subst ha'
          exact ho.prot did a (mem_lookup ha)
        · have hk1 : KeepsOwn T h (nw c h).2 := hn c h _ _ rfl
          rcases andThen_eq hp with ⟨v, hv, hp⟩ | ⟨e, _, hp⟩
          · obtain ⟨a, fs, rfl, e⟩ := hi c h v (nw c h).2 (by rw [← hv])
            simp only at hp
            injection hp with e1 e2; subst e1 e2
            have hg := hf hk c hc
            refine ⟨⟨hk1.1, fun ho => ⟨own_protos (hk1.2 ho).1 e hg, (hk1.2 ho).2⟩⟩, fun _ a' ha' => ?_⟩
            injection ha' with ha'; subst ha'
            exact ⟨c, fs, e, hg⟩
          · injection hp with e1 e2; subst e1 e2
            exact ⟨hk1, fun _ a ha => by cases ha⟩
      rcases andThen_eq he with ⟨a, ha, he⟩ | ⟨e, _, he⟩
      · obtain ⟨hk1, hin⟩ := hpro (Prod.eta _).symm
        unfold copyInst at he
        split at he
        · next c' fs' e =>
          simp only [Prod.mk.injEq] at he
          obtain ⟨rfl, rfl⟩ := he
          generalize prototype did (nw c) h = pr at *
          obtain ⟨pr, h1⟩ := pr
          simp only at *
          have hno : Own T h1 → ∀ n l, (n, HVal.ref l) ∈ fs' → l < h1.cells.length ∧ ¬ IsListAt h1 l := by
            intro ho1 n l hm
            refine ⟨ho1.inside a _ _ _ _ e hm, fun hl => ?_⟩
            obtain ⟨c2, fs2, e2, hnl⟩ := hin ho1 a ha
            rw [e] at e2; injection e2 with e2; injection e2 with e2 _; subst e2
            exact ho1.decl a _ _ _ _ e hm hl hnl
          have hlen : (h1.alloc (.inst c' fs')).2.cells.length = h1.cells.length + 1 := by simp [alloc_cells]
          refine ⟨hk1.trans ⟨alloc_prefix _ _, fun ho1 => ?_⟩, fun ho v hv l hl => ?_⟩
          · refine ⟨own_alloc_inst ho1 c' fs' fun n l hm => ⟨(hno ho1 n l hm).1, fun hl => absurd hl (hno ho1 n l hm).2⟩, ?_⟩
            intro b c2 fs2 n l hb e2 hm hl
            rcases get_append e2 with e2 | ⟨_, e2⟩
            · exact absurd (lt_of_get e2) (Nat.not_lt.2 hb)
            · injection e2 with e3 e4; subst e3 e4
              obtain ⟨h5, h6⟩ := hno ho1 n l hm
              exact absurd ((listAt_prefix (alloc_prefix _ _) h5).1 hl) h6
          · injection hv with hv; subst hv; injection hl with hl; subst hl
            refine ⟨hk1.1.length_le, by rw [hlen]; exact Nat.lt_succ_self _, ?_⟩
            rintro ⟨o, items, e'⟩
            have : (h1.alloc (.inst c' fs')).2.cells[(h1.alloc (.inst c' fs')).1]? = some (.inst c' fs') := get_append_len _ _
            rw [this] at e'; cases e'
        · injection he with e1 e2; subst e1 e2
          exact ⟨hk1, fun _ v hv => by cases hv⟩
      · injection he with e1 e2; subst e1 e2
        exact ⟨(hpro (Prod.eta _).symm).1, fun _ v hv => by cases hv⟩
    · exact hstay _ (by simp) he
  · refine hstay _ ?_ he
    intro l
    cases f.default <;> simp [Val.toH]

theorem acceptH_ref {T : Table} {N : Nat} {h : Heap} {f : Field} {v : HVal} {l : Addr}
    (ha : f.acceptH T N h v = .ok (.ref l)) : v = .ref l := by
  by_cases hk : f.kind = .list
  · exact (acceptH_list hk ha).symm
  · cases acceptH_accepts hk ha with
    | inst => rfl
    | header => rfl

/-- What is known of the fields of a new instance. -/
def FreshFields (h h' : Heap) (L : List Field) (fs : List (Str × HVal)) : Prop :=
  ∀ n l, (n, HVal.ref l) ∈ fs → h.cells.length ≤ l ∧ l < h'.cells.length ∧
    (IsListAt h' l → Unowned h' l ∧ ∃ f ∈ L, f.kind = .list)

theorem own_fields {T : Table} {N : Nat} {nw : ClsId → Act HVal} (hn : ∀ c h r h', nw c h = (r, h') → KeepsOwn T h h')
    (hi : ∀ c h o h', nw c h = (.ok o, h') → ∃ a fs, o = .ref a ∧ h'.cells[a]? = some (.inst c fs)) {did : Str → Nat}
    (L : List Field) (hL : ∀ f ∈ L, f.kind = .ref → ∀ g, f.type = .complex g → NoLists T g) :
    ∀ {h : Heap} {r : Except Exn (List (Str × HVal))} {h' : Heap}, emptyFields T N nw did L h = (r, h') →
      KeepsOwn T h h' ∧ (Own T h → ∀ fs, r = .ok fs → FreshFields h h' L fs) := by
  induction L with
  | nil =>
    intro h r h' he
    simp only [emptyFields, Prod.mk.injEq] at he
    obtain ⟨rfl, rfl⟩ := he
    refine ⟨.refl T _, fun _ fs e => ?_⟩
    injection e with e; subst e
    intro n l hm; cases hm
  | cons f L ih =>
    intro h r h' he
    rw [emptyFields] at he
    obtain ⟨hk1, hv1⟩ := own_emptyH hn hi (did := did f.name) (f := f) (hL f List.mem_cons_self) (h := h) (Prod.eta _).symm
    rcases andThen_eq he with ⟨v, hv, he⟩ | ⟨e, _, he⟩
    · rcases andThen_eq he with ⟨w, hw, he⟩ | ⟨e, _, he⟩
      · simp only at hw he
        obtain ⟨hk2, hok⟩ := ih (fun f hf => hL f (List.mem_cons_of_mem _ hf)) (h := (emptyH nw (did f.name) f h).2)
          (Prod.eta _).symm
        rcases andThen_eq he with ⟨fs, hfs, he⟩ | ⟨e, _, he⟩
        · injection he with hr hh; subst hr hh
          refine ⟨hk1.trans hk2, fun ho fs' e => ?_⟩
          injection e with e; subst e
          have ho1 := (hk1.2 ho).1
          intro n l hm
          rcases List.mem_cons.1 hm with hm | hm
          · injection hm with _ hm; subst hm
            have hvl := acceptH_ref hw
            obtain ⟨h1, h2, h3⟩ := hv1 ho v hv l hvl
            refine ⟨h1, Nat.lt_of_lt_of_le h2 hk2.1.length_le, fun hl => ?_⟩
            have hl1 := (listAt_prefix hk2.1 h2).1 hl
            obtain ⟨h4, h5⟩ := h3 hl1
            exact ⟨unowned_prefix hk2 ho1 h2 hl1 h4, f, List.mem_cons_self, h5⟩
          · obtain ⟨h1, h2, h3⟩ := hok ho1 fs hfs n l hm
            refine ⟨Nat.le_trans hk1.1.length_le h1, h2, fun hl => ?_⟩
            obtain ⟨h4, g, h5, h6⟩ := h3 hl
            exact ⟨h4, g, List.mem_cons_of_mem _ h5, h6⟩
        · injection he with hr hh; subst hr hh
          exact ⟨hk1.trans hk2, fun _ fs' e => by cases e⟩
      · injection he with hr hh; subst hr hh
        exact ⟨hk1, fun _ fs' e => by cases e⟩
    · injection he with hr hh; subst hr hh
      exact ⟨hk1, fun _ fs' e => by cases e⟩

theorem own_new {T : Table} (hT : T.Wf) (hg : FlatGroups T) {did : ClsId → Str → Nat} : ∀ (n : Nat) (c : ClsId) (h : Heap)
    (r : Except Exn HVal) (h' : Heap), newH T did n c h = (r, h') → KeepsOwn T h h' ∧
      (Own T h → ∀ a, r = .ok (.ref a) → ∃ fs, h'.cells[a]? = some (.inst c fs) ∧
        ∀ n l, (n, HVal.ref l) ∈ fs → h.cells.length ≤ l) := by
  intro n
  induction n with
  | zero =>
    intro c h r h' he
    simp only [newH, Prod.mk.injEq] at he
    obtain ⟨rfl, rfl⟩ := he
    exact ⟨.refl T _, fun _ a ha => by cases ha⟩
  | succ n ih =>
    intro c h r h' he
    rw [newH] at he
    obtain ⟨hk, hok⟩ := own_fields (T := T) (N := n) (nw := newH T did n) (fun c h r h' e => (ih c h r h' e).1)
      (fun c h o h' e => by obtain ⟨a, fs, h1, h2, _⟩ := new_inst hT e; exact ⟨a, fs, h1, h2⟩)
      (did := did c) (T c).fields (fun f hf hk g hgt f' hf' => (hg c f hf hk g hgt f' hf').1) (h := h) (Prod.eta _).symm
    rcases andThen_eq he with ⟨fs, hfs, he⟩ | ⟨e, _, he⟩
    · simp only [Prod.mk.injEq] at he
      obtain ⟨rfl, rfl⟩ := he
      generalize emptyFields T n (newH T did n) (did c) (T c).fields h = x at *
      obtain ⟨x, h1⟩ := x
      simp only at *
      refine ⟨⟨hk.1.trans (alloc_prefix _ _), fun ho => ?_⟩, fun ho a ha => ?_⟩
      · obtain ⟨ho1, hnr⟩ := hk.2 ho
        have hff := hok ho fs hfs
        refine ⟨own_alloc_inst ho1 c fs fun n l hm => ⟨(hff n l hm).2.1, fun hl => ?_⟩, ?_⟩
        · obtain ⟨h4, g, h5, h6⟩ := (hff n l hm).2.2 hl
          exact ⟨h4, fun hno => hno g h5 h6⟩
        · intro b c2 fs2 n l hb e2 hm hl
          rcases get_append e2 with e2 | ⟨_, e2⟩
          · have hlt := ho1.inside b _ _ _ _ e2 hm
            exact hnr b c2 fs2 n l hb e2 hm ((listAt_prefix (alloc_prefix _ _) hlt).1 hl)
          · injection e2 with e3 e4; subst e3 e4
            exact (hff n l hm).1
      · injection ha with ha; injection ha with ha; subst ha
        exact ⟨fs, get_append_len _ _, fun n l hm => (hok ho fs hfs n l hm).1⟩
    · injection he with e1 e2; subst e1 e2
      exact ⟨hk, fun _ a ha => by cases ha⟩

theorem mem_set {α : Type} {d : Dict α} {k n : Str} {v x : α} (h : (n, x) ∈ Dict.set d k v) : (n, x) ∈ d ∨ x = v := by
  induction d with
  | nil => simp [Dict.set] at h; exact .inr h.2
  | cons p r ih =>
    obtain ⟨k', v'⟩ := p
    simp only [Dict.set] at h
    split at h
    · rcases List.mem_cons.1 h with h | h
      · injection h with _ h; exact .inr h
      · exact .inl (List.mem_cons_of_mem _ h)
    · rcases List.mem_cons.1 h with h | h
      · injection h with h1 h2; subst h1 h2; exact .inl List.mem_cons_self
      · rcases ih h with h | h
        · exact .inl (List.mem_cons_of_mem _ h)
        · exact .inr h

theorem get_mem {α : Type} {d : Dict α} {k : Str} {v : α} (h : Dict.get? d k = some v) : (k, v) ∈ d := by
  induction d with
  | nil => simp [Dict.get?] at h
  | cons p r ih =>
    obtain ⟨k', v'⟩ := p
    simp only [Dict.get?] at h
    split at h
    · next hk => injection h with h; subst h; subst hk; exact List.mem_cons_self
    · exact List.mem_cons_of_mem _ (ih h)

theorem own_set {T : Table} {N : Nat} {o : HVal} {name : Str} {v : HVal} {h : Heap} {r : Except Exn HVal} {h' : Heap}
    (he : setH T N o name v h = (r, h')) (hv : Plain h v) (ho : Own T h) : Own T h' := by
  rcases setH_cases he with ⟨e, _, rfl⟩ | ⟨a, c, fs, f, w, rfl, e, hf, rfl, ha, hl, rfl, rfl⟩
  · exact ho
  · have hlists := (set_lists he).2
    have hlen := (set_lists he).1
    have hla : ∀ l, IsListAt (h.put a (.inst c (Dict.set fs f.name w))) l ↔ IsListAt h l := by
      intro l; unfold IsListAt
      constructor
      · rintro ⟨o, i, e⟩; exact ⟨o, i, (hlists _ _ _).1 e⟩
      · rintro ⟨o, i, e⟩; exact ⟨o, i, (hlists _ _ _).2 e⟩
    have hw : ∀ l, w = .ref l → ∃ c fs, h.cells[l]? = some (.inst c fs) := by
      intro l hwl
      refine hv l ?_
      by_cases hk : f.kind = .list
      · rw [← hl hk]; exact hwl
      · have := ha hk
        rw [hwl] at this
        cases this <;> rfl
    -- every instance was there before, with the same references to lists
    have hold : ∀ (b : Addr) (c' : ClsId) (gs : List (Str × HVal)), (h.put a (.inst c (Dict.set fs f.name w))).cells[b]? = some (.inst c' gs) →
        ∃ gs', h.cells[b]? = some (.inst c' gs') ∧ ∀ n l, (n, HVal.ref l) ∈ gs → (n, HVal.ref l) ∈ gs' ∨
          ∃ c fs, h.cells[l]? = some (.inst c fs) := by
      intro b c' gs eb
      by_cases hb : b = a
      · subst hb
        rw [put_get_self e] at eb
        injection eb with eb; injection eb with e1 e2; subst e1 e2
        refine ⟨fs, e, fun n l hm => ?_⟩
        rcases mem_set hm with hm | hm
        · exact .inl hm
        · exact .inr (hw l hm.symm)
      · rw [put_get_other hb] at eb
        exact ⟨gs, eb, fun n l hm => .inl hm⟩
    have hnl : ∀ {l c fs}, h.cells[l]? = some (.inst c fs) → ¬ IsListAt h l := by
      rintro l c fs e ⟨o, i, e'⟩; rw [e] at e'; cases e'
    constructor
    · intro b c' gs n l eb hm
      rw [hlen]
      obtain ⟨gs', e1, h1⟩ := hold b c' gs eb
      rcases h1 n l hm with h2 | ⟨_, _, h2⟩
      · exact ho.inside _ _ _ _ _ e1 h2
      · exact lt_of_get h2
    · intro b b' c1 c2 gs gs' n n' l eb eb' hm hm' hli
      rw [hla] at hli
      obtain ⟨gs1, e1, h1⟩ := hold b c1 gs eb
      obtain ⟨gs2, e2, h2⟩ := hold b' c2 gs' eb'
      rcases h1 n l hm with h3 | ⟨_, _, h3⟩
      · rcases h2 n' l hm' with h4 | ⟨_, _, h4⟩
        · exact ho.uniq _ _ _ _ _ _ _ _ _ e1 e2 h3 h4 hli
        · exact absurd hli (hnl h4)
      · exact absurd hli (hnl h3)
    · intro b c1 gs n l eb hm hli
      rw [hla] at hli
      obtain ⟨gs1, e1, h1⟩ := hold b c1 gs eb
      rcases h1 n l hm with h3 | ⟨_, _, h3⟩
      · exact ho.decl _ _ _ _ _ e1 h3 hli
      · exact absurd hli (hnl h3)
    · intro d b hd
      obtain ⟨c', gs, e1, h1⟩ := ho.prot d b hd
      obtain ⟨gs', e2⟩ := keeps_put_inst (fs' := Dict.set fs f.name w) e b c' gs e1
      exact ⟨c', gs', e2, h1⟩

theorem plain_mono {h h' : Heap} (hk : KeepsClasses h h') {v : HVal} (hv : Plain h v) : Plain h' v := by
  intro l hl
  obtain ⟨c, fs, e⟩ := hv l hl
  obtain ⟨fs', e⟩ := hk l c fs e
  exact ⟨c, fs', e⟩

theorem own_init {T : Table} (hT : T.Wf) {N : Nat} {o : HVal} (kw : List (Str × HVal)) :
    ∀ {h : Heap} {r : Except Exn HVal} {h' : Heap}, initH T N o kw h = (r, h') → (∀ p ∈ kw, Plain h p.2) → Own T h →
      Own T h' := by
  induction kw with
  | nil =>
    intro h r h' he _ ho
    simp only [initH, Prod.mk.injEq] at he
    obtain ⟨_, rfl⟩ := he
    exact ho
  | cons p kw ih =>
    obtain ⟨k, v⟩ := p
    intro h r h' he hp ho
    rw [initH] at he
    have ho1 : Own T (setH T N o k v h).2 := own_set (Prod.eta _).symm (hp (k, v) List.mem_cons_self) ho
    have hk1 : KeepsClasses h (setH T N o k v h).2 := (good_set hT (Prod.eta _).symm).2
    rcases andThen_eq he with ⟨_, _, he⟩ | ⟨e, _, he⟩
    · exact ih he (fun p hm => plain_mono hk1 (hp p (List.mem_cons_of_mem _ hm))) ho1
    · injection he with _ he; subst he
      exact ho1

theorem own_put_list {T : Table} {h : Heap} (ho : Own T h) {a : Addr} {ow : Option Field} {is is' : List HVal}
    (e : h.cells[a]? = some (.list ow is)) : Own T (h.put a (.list ow is')) := by
  have hinst : ∀ {b : Addr} {c fs}, (h.put a (.list ow is')).cells[b]? = some (.inst c fs) → h.cells[b]? = some (.inst c fs) := by
    intro b c fs eb
    by_cases hb : b = a
    · subst hb; rw [put_get_self e] at eb; cases eb
    · rw [put_get_other hb] at eb; exact eb
  have hl : ∀ {l}, IsListAt (h.put a (.list ow is')) l → IsListAt h l := by
    rintro l ⟨o, i, el⟩
    by_cases hb : l = a
    · subst hb; exact ⟨_, _, e⟩
    · rw [put_get_other hb] at el; exact ⟨_, _, el⟩
  constructor
  · intro b c' gs n l eb hm
    simpa [Heap.put] using ho.inside _ _ _ _ _ (hinst eb) hm
  · intro b b' c1 c2 gs gs' n n' l eb eb' hm hm' hli
    exact ho.uniq _ _ _ _ _ _ _ _ _ (hinst eb) (hinst eb') hm hm' (hl hli)
  · intro b c1 gs n l eb hm hli
    exact ho.decl _ _ _ _ _ (hinst eb) hm (hl hli)
  · intro d b hd
    obtain ⟨c', gs, e1, h1⟩ := ho.prot d b hd
    obtain ⟨gs', e2⟩ := keeps_put_list (o' := ow) (is' := is') e b c' gs e1
    exact ⟨c', gs', e2, h1⟩

theorem own_run {T : Table} (hT : T.Wf) (hg : FlatGroups T) {did : ClsId → Str → Nat} {N : Nat} (ops : List Op) :
    ∀ h, KeepsLists T did N ops h → Own T h → Own T (runOps T did N ops h).2 := by
  induction ops with
  | nil => intro h _ ho; exact ho
  | cons op ops ih =>
    intro h hk ho
    rw [runOps_cons]
    refine ih _ hk.2 ?_
    have hk1 := hk.1
    cases op with
    | new c kw =>
      simp only at hk1
      obtain ⟨hko, _⟩ := own_new hT hg (did := did) N c h _ _ (Prod.eta _).symm
      rw [Op.run]
      generalize hr : Act.andThen (newH T did N c h) (fun o h => initH T N o kw h) = r
      obtain ⟨r, h'⟩ := r
      rcases andThen_eq hr with ⟨o, _, hr⟩ | ⟨_, _, hr⟩
      · exact own_init hT kw hr (fun p hp => plain_mono (prefix_keeps hko.1) (hk1 p hp)) (hko.2 ho).1
      · injection hr with _ hr; subst hr
        exact (hko.2 ho).1
    | set o name v => exact own_set (Prod.eta _).symm hk1 ho
    | list items => exact (own_alloc_list ho _ _).1
    | raw l items =>
      simp only [Op.run]
      split
      · split
        · next e => exact own_put_list ho e
        · exact ho
      · exact ho
    | append l v =>
      rw [Op.run]
      generalize hx : appendH T N l v h = x
      obtain ⟨r, h'⟩ := x
      rcases appendH_cases hx with ⟨_, _, rfl⟩ | ⟨b, is, _, _, ⟨f, w, e, _, _, rfl⟩ | ⟨e, rfl⟩⟩
      · exact ho
      · exact own_put_list ho e
      · exact own_put_list ho e

/-- The view of an object whose own cell and lists are untouched. -/
theorem view_congr {h h' : Heap} {b : Addr} (hb : h'.cells[b]? = h.cells[b]?)
    (hl : ∀ c fs n l, h.cells[b]? = some (.inst c fs) → (n, HVal.ref l) ∈ fs → h'.cells[l]? = h.cells[l]? ∨
      (¬ IsListAt h l ∧ ¬ IsListAt h' l)) : view h' b = view h b := by
  unfold view
  rw [hb]
  split
  · next c fs e =>
    congr 2
    refine List.map_congr_left fun p hp => ?_
    obtain ⟨n, v⟩ := p
    simp only [Prod.mk.injEq, true_and]
    cases v with
    | ref l =>
      simp only
      rcases hl c fs n l e hp with h1 | ⟨h1, h2⟩
      · rw [h1]
      · split
        · next h3 => exact absurd ⟨_, _, h3⟩ h2
        · split
          · next h3 => exact absurd ⟨_, _, h3⟩ h1
          · rfl
    | _ => rfl
  · rfl

/-- C35. Provided groups contain no lists and no groups, and the program stores no list objects in fields itself: in any
reachable state, changing an instance (assigning to its fields, or changing its lists in any way) leaves the fields and
lists of every other instance as they were. -/
theorem C35_separate (T : Table) (hT : T.Wf) (hg : FlatGroups T) (did : ClsId → Str → Nat) (N : Nat) (ops : List Op)
    (hk : KeepsLists T did N ops {}) (a b : Addr) (hab : b ≠ a) (op : Op) (hm : Mutates (heapAfter T did N ops) a op) :
    view (op.run T did N (heapAfter T did N ops)).2 b = view (heapAfter T did N ops) b := by
  have ho : Own T (heapAfter T did N ops) := own_run hT hg ops {} hk (own_empty T)
  generalize heapAfter T did N ops = h at *
  -- changing a list of `a`
  have hlist : ∀ c fs n l ow is is', h.cells[a]? = some (.inst c fs) → Dict.get? fs n = some (.ref l) →
      h.cells[l]? = some (.list ow is) → view (h.put l (.list ow is')) b = view h b := by
    intro c fs n l ow is is' ea hget el
    by_cases hbl : b = l
    · subst hbl
      simp only [view, put_get_self el, el]
    · refine view_congr (put_get_other hbl) ?_
      intro c' fs' n' l' eb hm
      by_cases hll : l' = l
      · subst hll
        have : b = a := ho.uniq _ _ _ _ _ _ _ _ _ eb ea hm (get_mem hget) ⟨_, _, el⟩
        exact absurd this hab
      · exact .inl (put_get_other hll)
  rcases hm with ⟨name, v, rfl⟩ | ⟨c, fs, n, l, ea, hget, ⟨v, rfl⟩ | ⟨items, rfl⟩⟩
  · rw [Op.run]
    generalize hx : setH T N (.ref a) name v h = x
    obtain ⟨r, h'⟩ := x
    have hsl := (set_lists hx).2
    rcases setH_cases hx with ⟨e, _, rfl⟩ | ⟨a', c, fs, f, w, h1, e, hf, rfl, ha, _, rfl, rfl⟩
    · rfl
    · injection h1 with h1; subst h1
      refine view_congr (put_get_other hab) fun c' fs' n l eb hm => ?_
      by_cases hl : l = a
      · subst hl
        right
        constructor
        · rintro ⟨o, i, e'⟩; rw [e] at e'; cases e'
        · rintro ⟨o, i, e'⟩; rw [put_get_self e] at e'; cases e'
      · exact .inl (put_get_other hl)
  · rw [Op.run]
    generalize hx : appendH T N (.ref l) v h = x
    obtain ⟨r, h'⟩ := x
    rcases appendH_cases hx with ⟨_, _, rfl⟩ | ⟨b', is, h1, _, ⟨f, w, e, _, _, rfl⟩ | ⟨e, rfl⟩⟩
    · rfl
    · injection h1 with h1; subst h1
      exact hlist c fs n l _ is _ ea hget e
    · injection h1 with h1; subst h1
      exact hlist c fs n l _ is _ ea hget e
  · simp only [Op.run]
    split
    · next e => exact hlist c fs n l _ _ _ ea hget e
    · rfl

/-- C35. Under the same conditions, every object a new instance refers to is new. -/
theorem C35_fresh (T : Table) (hT : T.Wf) (hg : FlatGroups T) (did : ClsId → Str → Nat) (N : Nat) (ops : List Op)
    (hk : KeepsLists T did N ops {}) (c : ClsId) (a : Addr) (h' : Heap)
    (he : (Op.new c []).run T did N (heapAfter T did N ops) = (.ok (.ref a), h')) :
    ∃ fs, h'.cells[a]? = some (.inst c fs) ∧
      ∀ n l, (n, HVal.ref l) ∈ fs → (heapAfter T did N ops).cells.length ≤ l := by
  have ho : Own T (heapAfter T did N ops) := own_run hT hg ops {} hk (own_empty T)
  rw [Op.run] at he
  rcases andThen_eq he with ⟨o, h1, h2⟩ | ⟨_, _, h2⟩
  · simp only [initH, Prod.mk.injEq, Except.ok.injEq] at h2
    obtain ⟨rfl, rfl⟩ := h2
    exact (own_new hT hg (did := did) N c _ _ _ (Prod.eta _).symm).2 ho a h1
  · cases h2

/-! ### Where C35 fails -/

namespace Ex

/-- `class Tags(xsd.Group): tags = xsd.ListElement(xsd.String, 'tag')` (class 1) and
`class Owner(xsd.ComplexType): group = xsd.Ref(Tags)` (every other class). -/
def sharing : Table
  | 1 => { name := py"Tags", mro := [1], isGroup := true,
           fields := [{ name := py"tags", kind := .list, type := .simple (.string {}), tagname := some py"tag" }] }
  | n => { name := py"Owner", mro := [n], fields := [{ name := py"group", kind := .ref, type := .complex 1 }] }

def twoOwners : List Op := [.new 0 [], .new 0 []]

end Ex

/-- C35 fails for a group with a list: the groups of two separately constructed instances share the list, so that
appending to one (`x.group.tags.append('v')`) changes the other. -/
theorem C35_group_lists_shared : ∃ (x y gx gy l : Addr) (op : Op) (h : Heap),
    h = heapAfter Ex.sharing (fun _ _ => 0) 3 Ex.twoOwners ∧
    logOf Ex.sharing (fun _ _ => 0) 3 Ex.twoOwners = [(.new 0 [], .ok (.ref x)), (.new 0 [], .ok (.ref y))] ∧
    h.cells[x]? = some (.inst 0 [(py"group", .ref gx)]) ∧ h.cells[y]? = some (.inst 0 [(py"group", .ref gy)]) ∧
    gx ≠ gy ∧ h.cells[gx]? = some (.inst 1 [(py"tags", .ref l)]) ∧ Mutates h gx op ∧
    view h gy = some (1, [(py"tags", .ref l, some [])]) ∧
    view (op.run Ex.sharing (fun _ _ => 0) 3 h).2 gy = some (1, [(py"tags", .ref l, some [.atom (.str py"v")])]) :=
  ⟨3, 5, 2, 4, 0, .append (.ref 0) (.atom (.str py"v")), _, rfl, rfl, rfl, rfl, by decide, rfl,
    .inr ⟨1, _, py"tags", 0, rfl, rfl, .inl ⟨_, rfl⟩⟩, rfl, rfl⟩

/-! ### A history -/

namespace Ex

/-- `p = Person(name='Ann'); p.age = 'x' (fails); p.tags.append('a'); p.tags.append(1) (fails); q = Person(); p.nme = 1
(fails); Person(nme=1) (fails)` -/
def history : List Op := [
  .new 0 [(py"name", .atom (.str py"Ann"))],
  .set (.ref 3) py"age" (.atom (.str py"x")),
  .append (.ref 0) (.atom (.str py"a")),
  .append (.ref 0) (.atom (.int 1)),
  .new 0 [],
  .set (.ref 3) py"nme" (.atom (.int 1)),
  .new 0 [(py"nme", .atom (.int 1))]]

def after : Heap := heapAfter table (fun _ _ => 0) 4 history

theorem flat : FlatGroups table := by
  intro c f hf hk g hg
  match c with
  | 0 =>
    simp [table, person] at hf
    rcases hf with rfl | rfl | rfl | rfl | rfl | rfl <;> try cases hk
    injection hg with hg; subst hg
    decide
  | 1 => simp [table, address] at hf; subst hf; cases hk
  | 2 => simp [table, contact] at hf; subst hf; cases hk
  | 3 => simp [table, pick] at hf; rcases hf with rfl | rfl <;> cases hk
  | n + 4 => simp [table] at hf

theorem keeps : KeepsLists table (fun _ _ => 0) 4 history {} := by
  refine ⟨?_, ?_, trivial, trivial, ?_, ?_, ?_, trivial⟩ <;> intro <;> simp_all [Plain]

/-- What the operations return, and the first person at the end. -/
example : (logOf table (fun _ _ => 0) 4 history).map (·.2) =
      [.ok (.ref 3), .error .valueError, .ok HVal.none, .error .valueError, .ok (.ref 6), .error .valueError,
        .error .valueError] ∧
    view after 3 = some (0, [(py"id", HVal.none, none), (py"name", .atom (.str py"Ann"), none), (py"age", HVal.none, none),
      (py"tags", .ref 0, some [.atom (.str py"a")]), (py"address", HVal.none, none), (py"contact", .ref 2, none)]) :=
  ⟨rfl, rfl⟩

/-- The theorems apply to it. -/
example : (∀ f ∈ person.fields, f.kind ≠ .list → ∃ u v, Dict.get? [(py"id", HVal.none), (py"name", .atom (.str py"Ann")),
      (py"age", HVal.none), (py"tags", .ref 0), (py"address", HVal.none), (py"contact", .ref 2)] f.name = some v ∧
        Accepts table after f u v) ∧
    appended 0 (logOf table (fun _ _ => 0) 4 history) = [.atom (.str py"a")] ∧
    view ((Op.append (.ref 0) (.atom (.str py"b"))).run table (fun _ _ => 0) 4 after).2 6 = view after 6 :=
  ⟨fun f hf hk => C18_fields_accepted table table_wf (fun _ _ => 0) 4 history 3 0 _ rfl f hf hk, rfl,
    C35_separate table table_wf flat (fun _ _ => 0) 4 history keeps 3 6 (by decide) _
      (.inr ⟨0, _, py"tags", 0, rfl, rfl, .inl ⟨_, rfl⟩⟩)⟩

end Ex

end Soapfish
