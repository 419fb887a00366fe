import Verif.Spec.Recursion
import Verif.RunNew
import Verif.Props.CodeFields
/-
C96: classes whose fields lead back to the class itself.
-/
namespace Soapfish

section
variable {T : Table}

/-! ### Endless descent -/

theorem mapE_mem_ok {α β : Type} {f : α → Except Exn β} : ∀ {l : List α} {r : List β}, mapE f l = .ok r → ∀ a ∈ l, ∃ b, f a = .ok b := by
  intro l
  induction l with
  | nil => intro r _ a ha; cases ha
  | cons x l ih =>
    intro r h a ha
    unfold mapE at h
    cases hx : f x with
    | error e => rw [hx] at h; cases h
    | ok b =>
      rw [hx] at h
      replace h : (mapE f l >>= fun bs => Except.ok (b :: bs)) = .ok r := h
      cases hl : mapE f l with
      | error e => rw [hl] at h; cases h
      | ok bs =>
        rcases List.mem_cons.1 ha with rfl | ha
        · exact ⟨b, hx⟩
        · exact ih hl a ha

/-- An instance can only be made if one can be made, with less depth, of each class that is needed. -/
theorem newInst_needs {n : Nat} {c d : ClsId} {v : Val} (h : newInst T (n + 1) c = .ok v) (hn : Needs T c d) :
    ∃ w, newInst T n d = .ok w := by
  obtain ⟨f, hf, hk, ht⟩ := hn
  unfold newInst at h
  cases hm : mapE (fun f => do
      let v ← emptyValue (newInst T n) f
      let w ← f.accept T (newInst T n) v
      .ok (f.name, w)) (T c).fields with
  | error e => rw [hm] at h; cases h
  | ok fs =>
    obtain ⟨b, hb⟩ := mapE_mem_ok hm f hf
    cases he : emptyValue (newInst T n) f with
    | error e => rw [he] at hb; cases hb
    | ok ev =>
      rw [he] at hb
      replace hb : (f.accept T (newInst T n) ev >>= fun w => Except.ok (f.name, w)) = .ok b := hb
      unfold Field.accept at hb
      rw [if_neg hk, ht] at hb
      replace hb : ((Except.map (fun _ => ()) (newInst T n d) >>= fun _ => f.acceptItem T ev) >>= fun w => Except.ok (f.name, w)) =
        .ok b := hb
      cases hd : newInst T n d with
      | error e => rw [hd] at hb; cases hb
      | ok w => exact ⟨w, rfl⟩

theorem Endless.next {c : ClsId} (h : Endless T c) : ∃ d, Needs T c d ∧ Endless T d := by
  obtain ⟨s, rfl, hs⟩ := h
  exact ⟨s 1, hs 0, fun i => s (i + 1), rfl, fun i => hs (i + 1)⟩

theorem endless_never : ∀ (n : Nat) {c : ClsId}, Endless T c → ∀ v, newInst T n c ≠ .ok v := by
  intro n
  induction n with
  | zero => intro c _ v h; cases h
  | succ n ih =>
    intro c hc v h
    obtain ⟨d, hn, hd⟩ := hc.next
    obtain ⟨w, hw⟩ := newInst_needs h hn
    exact ih hd w hw

/-- **C96 (never).** If one can go on without end from a class along fields that are not lists, then no instance of it is
ever made: not by calling it, with any arguments, and not by reading any document; whatever the recursion limit is. -/
theorem C96_never {c : ClsId} (h : Endless T c) :
    (∀ n kwargs v, construct T n c kwargs ≠ .ok v) ∧ ∀ N n x v, parseCls T N n c x ≠ .ok v := by
  constructor
  · intro n kwargs v hv
    unfold construct at hv
    cases hw : newInst T n c with
    | error e => rw [hw] at hv; cases hv
    | ok w => exact endless_never n h w hw
  · intro N n x v hv
    cases n with
    | zero => cases hv
    | succ n =>
      unfold parseCls at hv
      cases hw : newInst T N c with
      | error e => rw [hw] at hv; cases hv
      | ok w => exact endless_never N h w hw

/-! ### What happens otherwise -/

/-- The value of a field of a new instance, if instances of the needed classes can be made or the recursion limit is hit. -/
theorem field_fine {n : Nat} {f : Field} (hf : StartsFine T f)
    (hn : ∀ d, f.kind ≠ .list → f.type = .complex d → newInst T n d = .error .recursionError ∨ ∃ w, newInst T n d = .ok w) :
    (∃ w, (emptyValue (newInst T n) f >>= fun v => f.accept T (newInst T n) v) = .ok w) ∨
    ((emptyValue (newInst T n) f >>= fun v => f.accept T (newInst T n) v) = .error .recursionError ∧
      ∃ d, f.kind ≠ .list ∧ f.type = .complex d ∧ newInst T n d = .error .recursionError) := by
  have other : ∀ ev, f.kind ≠ .list → emptyValue (newInst T n) f = .ok ev → (∃ w, f.acceptItem T ev = .ok w) →
      (∃ w, (emptyValue (newInst T n) f >>= fun v => f.accept T (newInst T n) v) = .ok w) ∨
      ((emptyValue (newInst T n) f >>= fun v => f.accept T (newInst T n) v) = .error .recursionError ∧
        ∃ d, f.kind ≠ .list ∧ f.type = .complex d ∧ newInst T n d = .error .recursionError) := by
    intro ev hk he ⟨w, hw⟩
    rw [he]
    show (∃ w, f.accept T (newInst T n) ev = .ok w) ∨ (f.accept T (newInst T n) ev = .error .recursionError ∧ _)
    unfold Field.accept
    rw [if_neg hk]
    unfold evaluate
    cases ht : f.type with
    | simple s => exact .inl ⟨w, hw⟩
    | any => exact .inl ⟨w, hw⟩
    | complex d =>
      rcases hn d hk ht with h | ⟨i, h⟩
      · exact .inr ⟨by show (Except.map _ (newInst T n d) >>= _) = _; rw [h]; rfl, d, hk, rfl, h⟩
      · refine .inl ⟨w, ?_⟩
        show (Except.map _ (newInst T n d) >>= _) = _
        rw [h]
        exact hw
  have none_ok : ∀ {ev : Val}, ev = Val.none → f.type ≠ .any → ∃ w, f.acceptItem T ev = .ok w := by
    rintro ev rfl ha
    unfold Field.acceptItem
    rw [if_neg (by decide)]
    unfold FType.accept
    cases ht : f.type with
    | simple s => exact ⟨_, by show Except.map _ (s.accept .none) = _; rw [SType.accept_none]; rfl⟩
    | any => exact absurd ht ha
    | complex d =>
      show ∃ w, acceptCls T d Val.none = .ok w
      unfold acceptCls
      split
      · exact ⟨_, rfl⟩
      · exact ⟨_, rfl⟩
  have plain : f.kind ∈ [Kind.element, .classNamed, .attribute] → f.kind ≠ .list ∧ emptyValue (newInst T n) f = .ok f.default := by
    intro h
    unfold emptyValue
    cases hk : f.kind <;> first | exact ⟨by simp, rfl⟩ | (rw [hk] at h; simp at h)
  cases hf with
  | list hk =>
    refine .inl ⟨.list true [], ?_⟩
    unfold emptyValue Field.accept
    rw [hk]
    rfl
  | content hk ha =>
    refine other Val.none (by rw [hk]; simp) ?_ (none_ok rfl ha)
    unfold emptyValue
    rw [hk]
  | none hk ha hd =>
    obtain ⟨h1, h2⟩ := plain hk
    exact other _ h1 h2 (none_ok hd ha)
  | default hk hw =>
    obtain ⟨h1, h2⟩ := plain hk
    exact other _ h1 h2 ⟨_, hw⟩
  | @group c hk ht hm =>
    rcases hn c (by rw [hk]; simp) ht with h | ⟨i, h⟩
    · refine .inr ⟨?_, c, by rw [hk]; simp, ht, h⟩
      unfold emptyValue
      rw [hk, ht]
      show (newInst T n c >>= _) = _
      rw [h]; rfl
    · refine other i (by rw [hk]; simp) ?_ ?_
      · unfold emptyValue
        rw [hk, ht]
        exact h
      · obtain ⟨fs, rfl⟩ := newInst_shape h
        unfold Field.acceptItem
        rw [if_neg (by simp [Val.isNil]), ht]
        show ∃ w, acceptCls T c (.inst c fs Option.none) = .ok w
        unfold acceptCls
        split
        · exact ⟨_, rfl⟩
        · show ∃ w, (if isSub T c c then _ else _) = _
          rw [if_pos (by unfold isSub; exact List.contains_iff_mem.2 hm)]
          exact ⟨_, rfl⟩

theorem mapE_fine {α β : Type} {f : α → Except Exn β} : ∀ {l : List α},
    (∀ a ∈ l, f a = .error .recursionError ∨ ∃ b, f a = .ok b) →
    (mapE f l = .error .recursionError ∧ ∃ a ∈ l, f a = .error .recursionError) ∨ ∃ r, mapE f l = .ok r := by
  intro l
  induction l with
  | nil => intro _; exact .inr ⟨[], rfl⟩
  | cons a l ih =>
    intro h
    unfold mapE
    rcases h a List.mem_cons_self with ha | ⟨b, ha⟩
    · rw [ha]; exact .inl ⟨rfl, a, List.mem_cons_self, ha⟩
    · rw [ha]
      rcases ih fun x hx => h x (List.mem_cons_of_mem _ hx) with ⟨h1, x, hx, h2⟩ | ⟨r, hr⟩
      · refine .inl ⟨?_, x, List.mem_cons_of_mem _ hx, h2⟩
        show (mapE f l >>= _) = _
        rw [h1]; rfl
      · refine .inr ⟨b :: r, ?_⟩
        show (mapE f l >>= _) = _
        rw [hr]; rfl

theorem LeadsTo.trans {c d e : ClsId} (h : LeadsTo T c d) (h' : LeadsTo T d e) : LeadsTo T c e := by
  induction h with
  | refl => exact h'
  | step hn _ ih => exact .step hn (ih h')

/-- One step of making an instance. -/
theorem newInst_fine {n : Nat} {c : ClsId} (hf : ∀ f ∈ (T c).fields, StartsFine T f)
    (hn : ∀ d, Needs T c d → newInst T n d = .error .recursionError ∨ ∃ w, newInst T n d = .ok w) :
    (newInst T (n + 1) c = .error .recursionError ∧ ∃ d, Needs T c d ∧ newInst T n d = .error .recursionError) ∨
    ∃ v, newInst T (n + 1) c = .ok v := by
  have h : ∀ f ∈ (T c).fields, _ := fun f hfm => field_fine (hf f hfm) fun d hk ht => hn d ⟨f, hfm, hk, ht⟩
  have key : ∀ f, (do
      let v ← emptyValue (newInst T n) f
      let w ← f.accept T (newInst T n) v
      Except.ok (f.name, w)) = ((emptyValue (newInst T n) f >>= fun v => f.accept T (newInst T n) v) >>= fun w =>
        Except.ok (ε := Exn) (f.name, w)) := by
    intro f
    cases emptyValue (newInst T n) f <;> rfl
  have hunf : newInst T (n + 1) c = (mapE (fun f => do
      let v ← emptyValue (newInst T n) f
      let w ← f.accept T (newInst T n) v
      Except.ok (f.name, w)) (T c).fields >>= fun fs => .ok (.inst c fs Option.none)) := rfl
  rw [hunf]
  rcases mapE_fine (f := fun f => do
      let v ← emptyValue (newInst T n) f
      let w ← f.accept T (newInst T n) v
      Except.ok (f.name, w)) (l := (T c).fields) (fun f hfm => by
        show (do
          let v ← emptyValue (newInst T n) f
          let w ← f.accept T (newInst T n) v
          Except.ok (f.name, w)) = _ ∨ ∃ b, (do
          let v ← emptyValue (newInst T n) f
          let w ← f.accept T (newInst T n) v
          Except.ok (f.name, w)) = _
        rw [key]
        rcases h f hfm with ⟨w, hw⟩ | ⟨hw, _⟩
        · rw [hw]; exact .inr ⟨_, rfl⟩
        · rw [hw]; exact .inl rfl) with ⟨hm, f, hfm, he⟩ | ⟨r, hr⟩
  · left
    rw [hm]
    refine ⟨rfl, ?_⟩
    replace he : (do
          let v ← emptyValue (newInst T n) f
          let w ← f.accept T (newInst T n) v
          Except.ok (f.name, w)) = Except.error Exn.recursionError := he
    rw [key] at he
    rcases h f hfm with ⟨w, hw⟩ | ⟨_, d, hk, ht, hd⟩
    · rw [hw] at he; cases he
    · exact ⟨d, ⟨f, hfm, hk, ht⟩, hd⟩
  · right
    rw [hr]
    exact ⟨_, rfl⟩

theorem newInst_outcome : ∀ (n : Nat) {c : ClsId}, (∀ d, LeadsTo T c d → ∀ f ∈ (T d).fields, StartsFine T f) →
    newInst T n c = .error .recursionError ∨ ∃ v, newInst T n c = .ok v := by
  intro n
  induction n with
  | zero => intro c _; exact .inl rfl
  | succ n ih =>
    intro c hf
    rcases newInst_fine (hf c .refl) fun d hd => ih (c := d) fun e he => hf e (.step hd he) with ⟨h, _⟩ | h
    · exact .inl h
    · exact .inr h

/-- **C96 (the exception).** If all fields start with values their types accept, then calling such a class raises
RecursionError, whatever the recursion limit is. -/
theorem C96_recursion {c : ClsId} (h : Endless T c) (hf : ∀ d, LeadsTo T c d → ∀ f ∈ (T d).fields, StartsFine T f)
    (n : Nat) (kwargs : List (Str × Val)) : construct T n c kwargs = .error .recursionError := by
  rcases newInst_outcome n hf with hn | ⟨v, hn⟩
  · unfold construct
    rw [hn]; rfl
  · exact absurd hn (endless_never n h v)

/-! ### Depth -/

/-- If making an instance hits the recursion limit, there is a way along needed classes as long as the limit. -/
theorem deep_chain : ∀ (n : Nat) {c : ClsId}, (∀ d, LeadsTo T c d → ∀ f ∈ (T d).fields, StartsFine T f) →
    newInst T n c = .error .recursionError →
    ∃ s : Nat → ClsId, s 0 = c ∧ ∀ i < n, Needs T (s i) (s (i + 1)) := by
  intro n
  induction n with
  | zero => intro c _ _; exact ⟨fun _ => c, rfl, fun i hi => absurd hi (Nat.not_lt_zero i)⟩
  | succ n ih =>
    intro c hf he
    rcases newInst_fine (hf c .refl) fun d hd => newInst_outcome n (c := d) fun e he => hf e (.step hd he) with
      ⟨_, d, hd, hde⟩ | ⟨v, hv⟩
    · obtain ⟨s, hs0, hs⟩ := ih (fun e he => hf e (.step hd he)) hde
      refine ⟨fun i => match i with | 0 => c | i + 1 => s i, rfl, ?_⟩
      intro i hi
      cases i with
      | zero => show Needs T c (s 0); rw [hs0]; exact hd
      | succ i => exact hs i (Nat.lt_of_succ_lt_succ hi)
    · rw [hv] at he; cases he

theorem leads_chain {s : Nat → ClsId} {n : Nat} (h : ∀ i < n, Needs T (s i) (s (i + 1))) : ∀ j ≤ n, ∀ i ≤ j, LeadsTo T (s i) (s j) := by
  intro j
  induction j with
  | zero => intro _ i hi; rw [Nat.le_zero.1 hi]; exact .refl
  | succ j ih =>
    intro hj i hi
    rcases Nat.lt_or_eq_of_le hi with hlt | rfl
    · exact (ih (Nat.le_of_succ_le hj) i (Nat.le_of_lt_succ hlt)).trans (.step (h j hj) .refl)
    · exact .refl

theorem length_le_of_nodup {α : Type} [DecidableEq α] : ∀ {l L : List α}, l.Nodup → (∀ a ∈ l, a ∈ L) → l.length ≤ L.length := by
  intro l
  induction l with
  | nil => intro L _ _; exact Nat.zero_le _
  | cons a l ih =>
    intro L hn hs
    have h1 := ih (L := L.erase a) (List.nodup_cons.1 hn).2 fun b hb =>
      (List.mem_erase_of_ne (by rintro rfl; exact (List.nodup_cons.1 hn).1 hb)).2 (hs b (List.mem_cons_of_mem _ hb))
    rw [List.length_erase_of_mem (hs a List.mem_cons_self)] at h1
    have : 0 < L.length := List.length_pos_of_mem (hs a List.mem_cons_self)
    rw [List.length_cons]
    omega

/-- Among more values than places two are the same. -/
theorem repeats {L : List ClsId} {s : Nat → ClsId} {n : Nat} (hL : ∀ i < n, s i ∈ L) (hn : L.length < n) :
    ∃ i j, i < j ∧ j < n ∧ s i = s j := by
  apply Classical.byContradiction
  intro h
  have hnd : ((List.range n).map s).Nodup := by
    refine List.pairwise_map.2 ?_
    refine (List.pairwise_lt_range (n := n)).imp_of_mem ?_
    intro i j _ hj hij he
    exact h ⟨i, j, hij, List.mem_range.1 hj, he⟩
  have := length_le_of_nodup hnd (L := L) fun a ha => by
    obtain ⟨i, hi, rfl⟩ := List.mem_map.1 ha
    exact hL i (List.mem_range.1 hi)
  rw [List.length_map, List.length_range] at this
  omega

theorem Endless.step {c d : ClsId} (hn : Needs T c d) (h : Endless T d) : Endless T c := by
  obtain ⟨s, h0, hs⟩ := h
  refine ⟨fun i => match i with | 0 => c | i + 1 => s i, rfl, ?_⟩
  intro i
  cases i with
  | zero => show Needs T c (s 0); rw [h0]; exact hn
  | succ i => exact hs i

theorem Endless.of_leads {c d : ClsId} (hr : LeadsTo T c d) (h : Endless T d) : Endless T c := by
  induction hr with
  | refl => exact h
  | step hn _ ih => exact (ih h).step hn

theorem endless_of_loop {d e : ClsId} (hn : Needs T d e) (hr : LeadsTo T e d) : Endless T d := by
  -- every class on the way has a next one that is on the way
  have next : ∀ x, (LeadsTo T x d) → ∃ y, Needs T x y ∧ LeadsTo T y d := by
    intro x hx
    cases hx with
    | refl => exact ⟨e, hn, hr⟩
    | step h h' => exact ⟨_, h, h'⟩
  let g : {x // LeadsTo T x d} → {x // LeadsTo T x d} := fun x => ⟨Classical.choose (next x.1 x.2), (Classical.choose_spec (next x.1 x.2)).2⟩
  let w : Nat → {x // LeadsTo T x d} := fun i => Nat.rec ⟨d, .refl⟩ (fun _ x => g x) i
  exact ⟨fun i => (w i).1, rfl, fun i => (Classical.choose_spec (next (w i).1 (w i).2)).1⟩

/-- **C96 (loops).** Among finitely many classes one can go on without end exactly if some class on the way leads back to
itself. -/
theorem C96_loop {c : ClsId} {L : List ClsId} (hL : ∀ d, LeadsTo T c d → d ∈ L) :
    Endless T c ↔ ∃ d e, LeadsTo T c d ∧ Needs T d e ∧ LeadsTo T e d := by
  constructor
  · rintro ⟨s, rfl, hs⟩
    obtain ⟨i, j, hij, -, he⟩ := repeats (s := s) (n := L.length + 1)
      (fun i _ => hL _ (leads_chain (n := i) (fun k _ => hs k) i (Nat.le_refl _) 0 (Nat.zero_le _))) (Nat.lt_succ_self _)
    refine ⟨s i, s (i + 1), leads_chain (n := i) (fun k _ => hs k) i (Nat.le_refl _) 0 (Nat.zero_le _), hs i, ?_⟩
    rw [he]
    have := leads_chain (n := j) (fun k _ => hs k) j (Nat.le_refl _) (i + 1) hij
    exact this
  · rintro ⟨d, e, h1, h2, h3⟩
    exact (endless_of_loop h2 h3).of_leads h1

/-- **C96 (exactly).** Otherwise an instance can be made, and the number of classes involved is enough as a recursion limit
(counting calls of classes): so a class either has instances under any reasonable limit, or never has any. -/
theorem C96_exactly {c : ClsId} {L : List ClsId} (hL : ∀ d, LeadsTo T c d → d ∈ L)
    (hf : ∀ d, LeadsTo T c d → ∀ f ∈ (T d).fields, StartsFine T f) {n : Nat} (hn : L.length ≤ n) :
    (∃ v, construct T n c [] = .ok v) ↔ ¬ Endless T c := by
  constructor
  · rintro ⟨v, hv⟩ h
    exact (C96_never h).1 n [] v hv
  · intro hend
    rcases newInst_outcome n hf with h | ⟨v, h⟩
    · exfalso
      obtain ⟨s, rfl, hs⟩ := deep_chain n hf h
      obtain ⟨i, j, hij, hj, he⟩ := repeats (s := s) (n := n + 1)
        (fun i hi => hL _ (leads_chain hs i (Nat.le_of_lt_succ hi) 0 (Nat.zero_le _))) (Nat.lt_succ_of_le hn)
      have hj' := Nat.le_of_lt_succ hj
      refine hend ((C96_loop hL).2 ⟨s i, s (i + 1), leads_chain hs i (by omega) 0 (Nat.zero_le _), hs i (by omega), ?_⟩)
      rw [he]
      exact leads_chain hs j hj' (i + 1) hij
    · refine ⟨v, ?_⟩
      unfold construct
      rw [h]; rfl

end

/-! ### Generated code -/

section
variable {prefixes : List (Option Str)} {digest : Str → Str} {n : Nat} {parent : Option Str} {d : DSchema} {m : PyModule}
  {vars : SchemaVars} {limit : Nat} {env : PyEnv} {s : GSchema}

/-- In an imported module: the class named `a` has a field that is no list and whose type is the class named `b`. -/
def EnvNeeds (env : PyEnv) (a b : Str) : Prop :=
  ∃ (o : ComplexObj) (p : Str × FieldObj) (u : TypeUse) (tag : Option Str) (k : Int) (nl : Bool), env.get a = some (.complex o) ∧ p ∈ o.fields ∧ p.2 = .element u tag k nl ∧ u.target env = .ok (.complex b)

theorem env_endless {f : Nat → Str} (h : ∀ i, EnvNeeds env (f i) (f (i + 1))) : ∀ (k i : Nat), instantiate env k (f i) ≠ .ok () := by
  intro k
  induction k with
  | zero => intro i hi; cases hi
  | succ k ih =>
    intro i hi
    obtain ⟨o, p, u, tag, k', nl, ho, hp, hpe, hu⟩ := h i
    replace hi : (match PyEnv.get env (f i) with
      | some (.complex o) => forX (fun p : Str × FieldObj => initField env (instantiate env k) p.2) o.fields
      | _ => .ok ()) = .ok () := hi
    rw [ho] at hi
    have := forX_mem hi p hp
    rw [hpe] at this
    unfold initField at this
    simp only [hu, bind, Except.bind] at this
    exact ih _ this

/-- What a reference to a class of the module stands for, if evaluating it works. -/
theorem ref_evaluates {known bound : List Str} {src : TypeSource} {q l : Str} {p : Option Str} {r : PyRef} {e : PyEnv} {u : TypeUse}
    (hs : src.qname = .ok q) (hq : Qualified q p l) (hr : pyRef prefixes known src = .ok r) (hp : p ∉ prefixes)
    (hu : typeUse e bound r = .ok u) (hev : evaluateUse env limit u = .ok ())
    (mono : ∀ n x, e.get n = some x → env.get n = some x) :
    ∃ o, env.get (capName l) = some o ∧ u.target env = .ok o.use := by
  have := pyRef_qualified hs hq hr
  rw [if_neg hp] at this
  split at this
  · subst this
    unfold typeUse at hu
    simp only at hu
    split at hu
    · rw [← Except.ok.inj hu] at hev; cases hev
    · split at hu
      · rename_i o ho
        rw [← Except.ok.inj hu]
        exact ⟨o, mono _ _ ho, use_target o⟩
      · cases hu
  · subst this
    rw [← Except.ok.inj (show Except.ok (TypeUse.path (capName l)) = .ok u from hu)] at hev ⊢
    cases hg : env.get (capName l) with
    | none =>
      unfold evaluateUse TypeUse.target at hev
      simp only [hg] at hev
      cases hev
    | some o => exact ⟨o, rfl, by simp only [TypeUse.target, hg]⟩

/-- The field of an element of a layer. -/
theorem layer_single {dc : DContent} {N : Str} {known : List Str} {c : PyClassDef} {e : PyEnv} {base : ComplexObj}
    {os : List (Str × FieldObj)} {as : List PyField} {es : List (List PyField)}
    (h : LayerClass prefixes dc N m env known c e base os as es) (hp : PlainContent dc) {el : DElement} (hel : el ∈ dc.elements)
    (hm : ¬ el.Many) {q : Str} (hq : el.type = some q) :
    ∃ p ∈ os, ∃ u tag k nl bound r, p.2 = .element u tag k nl ∧ q ≠ [] ∧ pyRef prefixes known (.item none (some q) false) = .ok r ∧
      typeUse e bound r = .ok u := by
  obtain ⟨fs, hfs, hfe⟩ := h.elems.mem_left hel
  obtain ⟨hr, hname, ht, hb⟩ := hp.elements el hel
  obtain ⟨nm, hn⟩ := Option.isSome_iff_exists.1 hname
  rcases elementFields_cases hfe hr ht hb hn with ⟨h1, _⟩ | ⟨q', r, b, _, _, _, hb', hmb, _⟩ | ⟨q', r, hq', hq0, _, _, hpr, rfl⟩ |
    ⟨st, r, args, hq', _⟩
  · unfold DElement.typed at h1; rw [hq] at h1; cases h1
  · exact absurd ⟨b, hb', hmb⟩ hm
  · rw [hq] at hq'; cases hq'
    have hin : PyField.element (pyName nm) r (if nm ∈ kwlist then some nm else none) el.minOccurs el.nillable ∈ c.fields := by
      rw [h.fields]
      exact List.mem_append_right _ (List.mem_flatten.2 ⟨_, hfs, List.mem_singleton.2 rfl⟩)
    obtain ⟨p, hpm, _, bound, _, hx⟩ := h.exec.mem_left hin
    unfold execField at hx
    split at hx
    · cases hx
    simp only [bind, Except.bind] at hx
    cases hu : typeUse e bound r with
    | error e => rw [hu] at hx; cases hx
    | ok u =>
      rw [hu] at hx
      simp only at hx
      cases hg : tagValue (if nm ∈ kwlist then some nm else none) with
      | error e => rw [hg] at hx; cases hx
      | ok tag =>
        rw [hg] at hx
        simp only at hx
        split at hx
        · exact ⟨p, hpm, u, tag, _, _, bound, r, (Except.ok.inj hx).symm, hq0, hpr, hu⟩
        · cases hx
  · rw [hq] at hq'; cases hq'

/-- An element that occurs at most once makes its class need the class of its type. -/
theorem env_needs (hm : schemaToPy prefixes digest n parent d = .ok m) (he : execModule vars [] limit m = .ok (env, s))
    (hd : (m.classes.map (·.name)).Nodup) {a b c : DComplex} (hab : Descends prefixes d a b) (hbc : Descends prefixes d b c)
    {A B : Str} (ha : a.name = some A) (hb : b.name = some B) :
    EnvNeeds env (capName A) (capName B) ∧ instantiate env limit (capName B) = .ok () := by
  have himp := execModule_imported he
  obtain ⟨cs, hl, hp, hdist, hcr, dc, hdc, el, hel, hone, q, pf, l, nm, hq, hql, hpf, hbn, hcap⟩ := hab.element
  rw [hb] at hbn
  cases hbn
  obtain ⟨bs, lc, base, bparts, os, known, cls, e, as, es, rfl, h, -, hbf, -, hball, -⟩ :=
    layers_class hm himp hd hl hab.listed ha hp hdist hcr
  have hL : All2 (fun c part => ∃ N base known cls e as es, LayerClass prefixes c N m env known cls e base part as es)
      (bs ++ [lc]) (bparts ++ [os]) := hball.append (.cons ⟨_, _, _, _, _, _, _, h⟩ .nil)
  obtain ⟨part, hpart, N', base', known', cls', e', as', es', hlc⟩ := hL.mem_left hdc
  obtain ⟨p, hpm, u, tag, k, nl, bound, r, hpe, hq0, hpr, hu⟩ := layer_single hlc (hp dc hdc) hel hone hq
  have hin : p ∈ base.fields ++ os := by
    have : base.fields ++ os = (bparts ++ [os]).flatten := by rw [hbf]; simp
    rw [this]
    exact List.mem_flatten.2 ⟨part, hpart, hpm⟩
  have hforce := himp.forced _ h.listed
  unfold forceClass at hforce
  rw [h.get] at hforce
  have hev := forX_mem hforce p hin
  rw [hpe] at hev
  replace hev : evaluateUse env limit u = .ok () := hev
  have hqn : TypeSource.qname (.item none (some q) false) = .ok q := by
    cases q with
    | nil => exact absurd rfl hq0
    | cons c cs => rfl
  obtain ⟨o', h3, h4⟩ := ref_evaluates hqn hql hpr hpf hu hev hlc.mono
  obtain ⟨csb, hlb, -⟩ := hbc.element
  obtain ⟨o, h1, h2⟩ := complex_object hm himp hd hlb hbc.listed hb
  rw [← hcap, h1] at h3
  cases h3
  replace h4 : u.target env = .ok (.complex o.name) := h4
  rw [h2] at h4
  refine ⟨⟨_, p, u, tag, k, nl, h.get, hin, hpe, h4⟩, ?_⟩
  unfold evaluateUse at hev
  simp only [h4, bind, Except.bind] at hev
  exact hev

/-- **C96 (generated code).** If the elements of a document that occur at most once lead on without end from one complex
type to another, then the code generated from it cannot be imported, whatever the recursion limit is: although XSD allows
this, as with a node that has an optional child node. -/
theorem C96_import (hm : schemaToPy prefixes digest n parent d = .ok m) (hd : (m.classes.map (·.name)).Nodup)
    {types : Nat → DComplex} (h : ∀ i, Descends prefixes d (types i) (types (i + 1))) (limit : Nat) (r : PyEnv × GSchema) :
    execModule vars [] limit m ≠ .ok r := by
  intro he
  obtain ⟨env, s⟩ := r
  have name : ∀ i, ∃ N, (types (i + 1)).name = some N := fun i => by
    obtain ⟨_, _, _, _, _, _, _, _, _, _, _, _, _, nm, _, _, _, hn, _⟩ := (h i).element
    exact ⟨nm, hn⟩
  let f : Nat → Str := fun i => capName (Classical.choose (name i))
  have hf : ∀ i, EnvNeeds env (f i) (f (i + 1)) ∧ instantiate env limit (f (i + 1)) = .ok () := fun i =>
    env_needs hm he hd (h (i + 1)) (h (i + 2)) (Classical.choose_spec (name i)) (Classical.choose_spec (name (i + 1)))
  exact env_endless (fun i => (hf i).1) limit 1 (hf 0).2

end

/-! ### Examples -/

namespace Ex

/-- A tree whose nodes have an optional left and a right node, and one with any number of children. -/
def treeTable : Table := fun c => match c with
  | 0 => { name := py"Node", mro := [0]
           fields := [{ name := py"label", kind := .element, type := .simple (.string {}) },
                      { name := py"left", kind := .element, type := .complex 0, required := false },
                      { name := py"right", kind := .element, type := .complex 0, required := false }] }
  | 1 => { name := py"Tree", mro := [1], fields := [{ name := py"children", kind := .list, type := .complex 1, tagname := some py"child" }] }
  | c => { name := py"Forest", mro := [c], fields := [{ name := py"first", kind := .element, type := .complex 1 }] }

theorem treeNode_endless : Endless treeTable 0 := ⟨fun _ => 0, rfl, fun _ => ⟨_, .tail _ (.head _), by decide, rfl⟩⟩

/-- No node can ever be made, with or without children; a tree of the other kind can. -/
example (n : Nat) : construct treeTable n 0 [(py"label", .atom (.str py"root"))] = .error .recursionError := by
  refine C96_recursion treeNode_endless ?_ n _
  have only : ∀ c d, LeadsTo treeTable c d → c = 0 → d = 0 := by
    intro c d h
    induction h with
    | refl => exact id
    | step hn _ ih =>
      rintro rfl
      obtain ⟨f, hf, _, ht⟩ := hn
      refine ih ?_
      rcases List.mem_cons.1 hf with rfl | hf
      · cases ht
      · rcases List.mem_cons.1 hf with rfl | hf
        · cases ht; rfl
        · rcases List.mem_cons.1 hf with rfl | hf
          · cases ht; rfl
          · cases hf
  intro d hd f hf
  rw [only 0 d hd rfl] at hf
  rcases List.mem_cons.1 hf with rfl | hf
  · exact .none (by decide) (by simp) rfl
  · rcases List.mem_cons.1 hf with rfl | hf
    · exact .none (by decide) (by simp) rfl
    · rcases List.mem_cons.1 hf with rfl | hf
      · exact .none (by decide) (by simp) rfl
      · cases hf

example : construct treeTable 2 2 [] = .ok (.inst 2 [(py"first", Val.none)] none) := rfl
example : construct treeTable 1 1 [] = .ok (.inst 1 [(py"children", .list true [])] none) := rfl

/-- A type whose element may contain the type itself, and a document with it. -/
def nodeType (bound : Option Bound) : DComplex where
  name := some py"node"
  content := { sequence := some [{ name := some py"next", type := some py"n:node", minOccurs := some 0, maxOccurs := bound }] }

def nodeDoc (bound : Option Bound) : DSchema where
  targetNamespace := some py"urn:n"
  elementFormDefault := some py"qualified"
  complexTypes := [nodeType bound]

theorem nodeDoc_descends : Descends [some py"xs"] (nodeDoc none) (nodeType none) (nodeType none) := by
  refine ⟨List.mem_singleton.2 rfl, _, .own rfl, ?_, by decide, by decide, _, List.mem_singleton.2 rfl, _, List.mem_singleton.2 rfl, ?_, _, some py"n", _, _, rfl, ?_,
    by decide, rfl, rfl⟩
  · intro c hc
    rw [List.mem_singleton.1 hc]
    refine ⟨rfl, nofun, ?_⟩
    intro e he
    rw [List.mem_singleton.1 he]
    decide
  · rintro ⟨b, hb, _⟩; cases hb
  · exact .prefixed (p := py"n") (l := py"node") (by decide) (by decide)

example : ∃ m, schemaToPy [some py"xs"] (fun _ => py"01234") 5 none (nodeDoc none) = .ok m ∧
    execModule [] [] 20 m = .error (.raised .recursionError) ∧ ∀ limit r, execModule [] [] limit m ≠ .ok r :=
  ⟨_, rfl, rfl, fun limit r => C96_import (prefixes := [some py"xs"]) (digest := fun _ => py"01234") (n := 5) (parent := none)
    (d := nodeDoc none) rfl (by decide) (fun _ => nodeDoc_descends) limit r⟩

/-- With any number of elements it can be imported. -/
example : ∃ m r, schemaToPy [some py"xs"] (fun _ => py"01234") 5 none (nodeDoc (some .unbounded)) = .ok m ∧
    execModule [] [] 10 m = .ok r := ⟨_, _, rfl, rfl⟩

end Ex

end Soapfish
