import Verif.HistoryLemmas
import Verif.Props.Heap
/-
C98: what parsing and constructing give does not depend on what happened before - except for groups in constructed
instances.
-/
namespace Soapfish

/-! ### Histories -/

theorem protos_set {T : Table} {did : ClsId → Str → Nat} {N : Nat} {o : HVal} {name : Str} {v : HVal} {h : Heap} (hT : T.Wf)
    (hp : Protos T did h) : Protos T did (setH T N o name v h).2 := by
  have hk := (good_set hT (show setH T N o name v h = ((setH T N o name v h).1, (setH T N o name v h).2) from rfl)).2
  refine hp.keep hk ?_
  rcases setH_cases (show setH T N o name v h = ((setH T N o name v h).1, (setH T N o name v h).2) from rfl) with
    ⟨_, _, e⟩ | ⟨a, c, fs, f, w, _, _, _, _, _, _, _, e⟩
  · rw [e]
  · rw [e]; rfl

theorem protos_init {T : Table} {did : ClsId → Str → Nat} {N : Nat} {o : HVal} (hT : T.Wf) : ∀ (kw : List (Str × HVal)) {h : Heap},
    Protos T did h → Protos T did (initH T N o kw h).2
  | [], _, hp => hp
  | (k, v) :: kw, h, hp => by
    have h1 := protos_set (N := N) (o := o) (name := k) (v := v) hT hp
    unfold initH
    generalize setH T N o k v h = r at h1
    obtain ⟨r, h'⟩ := r
    cases r with
    | error e => exact h1
    | ok u => exact protos_init hT kw h1

theorem protos_op {T : Table} {did : ClsId → Str → Nat} (hT : T.Wf) (hd : Descriptors T did) (hdef : PlainDefaults T) {N : Nat} {op : Op}
    {h : Heap} (hp : Protos T did h) : Protos T did (op.run T did N h).2 := by
  have hk := (good_run hT (show op.run T did N h = ((op.run T did N h).1, (op.run T did N h).2) from rfl)).2
  cases op with
  | new c kw =>
    have h1 := new_follows hT hd hdef N c h hp
    show Protos T did (Act.andThen (newH T did N c h) fun o h => initH T N o kw h).2
    generalize newH T did N c h = r at h1
    obtain ⟨r, h'⟩ := r
    cases hn : newInst T N c with
    | error e =>
      rw [hn] at h1
      obtain ⟨h2, h3⟩ := h1
      cases h2
      exact h3.2
    | ok v =>
      rw [hn] at h1
      obtain ⟨o, h2, h3, _⟩ := h1
      cases h2
      exact protos_init hT kw h3.2
  | set o name v => exact protos_set hT hp
  | append l v =>
    refine hp.keep hk ?_
    rcases appendH_cases (show appendH T N l v h = ((appendH T N l v h).1, (appendH T N l v h).2) from rfl) with
      ⟨_, _, e⟩ | ⟨a, items, _, _, ⟨f, w, _, _, _, e⟩ | ⟨_, e⟩⟩
    · show (appendH T N l v h).2.protos = _; rw [e]
    · show (appendH T N l v h).2.protos = _; rw [e]; rfl
    · show (appendH T N l v h).2.protos = _; rw [e]; rfl
  | list items => exact hp.keep hk rfl
  | raw l items =>
    refine hp.keep hk ?_
    cases l with
    | nil => rfl
    | atom a => rfl
    | ref a =>
      simp only [Op.run]
      split <;> rfl

theorem protos_deeds {T : Table} {did : ClsId → Str → Nat} (hT : T.Wf) (hd : Descriptors T did) (hdef : PlainDefaults T) {N : Nat} :
    ∀ (ds : List Deed) {h : Heap}, Protos T did h → Protos T did (runDeeds T did N ds h)
  | [], _, hp => hp
  | d :: ds, h, hp => by
    refine protos_deeds hT hd hdef ds ?_
    cases d with
    | op o => exact protos_op hT hd hdef hp
    | parse c x =>
      have := parse_follows hT hd hdef (N := N) N c x h hp
      unfold Deed.run
      simp only
      cases hr : parseCls T N N c x with
      | error e => rw [hr] at this; exact this.2.protos
      | ok v =>
        rw [hr] at this
        obtain ⟨_, _, hF, _⟩ := this
        exact hF.protos

theorem protos_empty {T : Table} {did : ClsId → Str → Nat} : Protos T did {} := by
  intro c f g p _ _ _ hl
  cases hl

/-! ### Parsing and constructing after any history -/

section
variable (T : Table) (hT : T.Wf) (did : ClsId → Str → Nat) (hd : Descriptors T did) (hdef : PlainDefaults T)
include hT hd hdef

/-- **C98 (parsing).** After any history of constructing, assigning, appending, list operations and parsing - failed ones
included - parsing a document gives an instance that holds what the document and the class alone say; it is made of new objects
only, and no existing object is changed. -/
theorem C98_parse (N : Nat) (past : List Deed) (n : Nat) (c : ClsId) (x : Xml) (v : Val) (hv : parseCls T N n c x = .ok v) :
    ∃ o h', parseClsH T did N n c x (runDeeds T did N past {}) = (.ok o, h') ∧
      Shows h' (runDeeds T did N past {}).cells.length o v ∧ Untouched (runDeeds T did N past {}) h' := by
  have := parse_follows hT hd hdef (N := N) n c x _ (protos_deeds hT hd hdef (N := N) past protos_empty)
  rw [hv] at this
  obtain ⟨o, h1, hF, hs⟩ := this
  exact ⟨o, _, Prod.ext h1 rfl, hs, fun b hb => hF.same b hb⟩

/-- **C98 (failed parsing).** What the document and the class alone say about exceptions is true after any history, too; no
existing object is changed. -/
theorem C98_parse_error (N : Nat) (past : List Deed) (n : Nat) (c : ClsId) (x : Xml) (e : Exn) (he : parseCls T N n c x = .error e) :
    ∃ h', parseClsH T did N n c x (runDeeds T did N past {}) = (.error e, h') ∧ Untouched (runDeeds T did N past {}) h' := by
  have := parse_follows hT hd hdef (N := N) n c x _ (protos_deeds hT hd hdef (N := N) past protos_empty)
  rw [he] at this
  exact ⟨_, Prod.ext this.1 rfl, fun b hb => this.2.same b hb⟩

/-- **C98 (histories do not matter).** Whatever happened in the one program and in the other, parsing the same document fails with
the same exception in both, or gives in both objects that hold the same tree and are new from root to leaf. -/
theorem C98_again (N : Nat) (past past' : List Deed) (n : Nat) (c : ClsId) (x : Xml) :
    (∃ e, (parseClsH T did N n c x (runDeeds T did N past {})).1 = .error e ∧ (parseClsH T did N n c x (runDeeds T did N past' {})).1 = .error e) ∨
    ∃ o h o' h' w, parseClsH T did N n c x (runDeeds T did N past {}) = (.ok o, h) ∧ Shows h (runDeeds T did N past {}).cells.length o w ∧
      parseClsH T did N n c x (runDeeds T did N past' {}) = (.ok o', h') ∧ Shows h' (runDeeds T did N past' {}).cells.length o' w := by
  cases hr : parseCls T N n c x with
  | error e =>
    obtain ⟨_, e1, _⟩ := C98_parse_error T hT did hd hdef N past n c x e hr
    obtain ⟨_, e2, _⟩ := C98_parse_error T hT did hd hdef N past' n c x e hr
    exact .inl ⟨e, by rw [e1], by rw [e2]⟩
  | ok v =>
    obtain ⟨o, h, e1, s1, _⟩ := C98_parse T hT did hd hdef N past n c x v hr
    obtain ⟨o', h', e2, s2, _⟩ := C98_parse T hT did hd hdef N past' n c x v hr
    exact .inr ⟨o, h, o', h', v, e1, s1, e2, s2⟩

/-- **C98 (constructing).** After any history, a new instance of a class without groups holds what the class alone says; it is
made of new objects only, and no existing object is changed. -/
theorem C98_new (N : Nat) (past : List Deed) (c : ClsId) (hg : ∀ f ∈ (T c).fields, f.kind ≠ .ref ∧ f.kind ≠ .content) (v : Val)
    (hv : newInst T N c = .ok v) :
    ∃ o h', newH T did N c (runDeeds T did N past {}) = (.ok o, h') ∧
      Shows h' (runDeeds T did N past {}).cells.length o v ∧ Untouched (runDeeds T did N past {}) h' := by
  have := new_follows hT hd hdef N c _ (protos_deeds hT hd hdef (N := N) past protos_empty)
  rw [hv] at this
  obtain ⟨o, h1, hF, a, fs, vs, rfl, rfl, hc, ha, hlen, hn1, hn2, hall⟩ := this
  refine ⟨.ref a, _, Prod.ext h1 rfl, .inst ha hc (by rw [hn1, hn2]) fun n v w hv hw => ?_, (frame_prefix hF.1 hF.2).same⟩
  have hmem : n ∈ (T c).fields.map (·.name) := by
    rw [← hn1]
    refine Classical.byContradiction fun hno => ?_
    rw [(Dict.get_none_iff fs n).2 hno] at hv
    cases hv
  obtain ⟨f, hf, rfl⟩ := List.mem_map.1 hmem
  have := hall f hf
  unfold Starts at this
  split at this
  · obtain ⟨l, e1, e2, e3, e4⟩ := this
    rw [hv] at e1
    rw [hw] at e2
    injection e1 with e1
    injection e2 with e2
    subst e1 e2
    exact .list (o := some f) e3 e4 rfl fun i v w hv => by simp at hv
  · obtain ⟨v', w', e1, e2, e3⟩ := this (by
      have := hg f hf
      cases hk : f.kind <;> rw [hk] at this <;> first | rfl | exact absurd rfl this.1 | exact absurd rfl this.2)
    rw [hv] at e1
    rw [hw] at e2
    injection e1 with e1
    injection e2 with e2
    subst e1 e2
    exact e3.bare (Nat.le_refl _)

end

/-! ### Groups of constructed instances -/

/-- Cached instances stay cached. -/
def Caches (h h' : Heap) : Prop := ∀ k p, h.protos.lookup k = some p → h'.protos.lookup k = some p

theorem Caches.trans {h h' h'' : Heap} (h1 : Caches h h') (h2 : Caches h' h'') : Caches h h'' := fun k p hp => h2 k p (h1 k p hp)

theorem caches_proto {did : Nat} {nw : Act HVal} (hn : ∀ h, Caches h (nw h).2) (h : Heap) : Caches h (prototype did nw h).2 := by
  unfold prototype
  cases hl : h.protos.lookup did with
  | some a => exact fun _ _ hp => hp
  | none =>
    have := hn h
    simp only
    generalize nw h = r at this
    obtain ⟨r, h'⟩ := r
    cases r with
    | error e => exact this
    | ok v =>
      simp only [Act.andThen]
      split
      · intro k p hp
        simp only [List.lookup_cons]
        split
        · next hk =>
          have : k = did := by simpa using hk
          rw [this, hl] at hp
          cases hp
        · exact this k p hp
      · exact this

theorem caches_copy {a : Addr} {h : Heap} : Caches h (copyInst a h).2 := by
  unfold copyInst
  split <;> exact fun _ _ hp => hp

theorem caches_empty {nw : ClsId → Act HVal} (hn : ∀ c h, Caches h (nw c h).2) (did : Nat) (f : Field) (h : Heap) :
    Caches h (emptyH nw did f h).2 := by
  unfold emptyH
  split
  · exact fun _ _ hp => hp
  · exact fun _ _ hp => hp
  · split
    · next c _ =>
      have := caches_proto (did := did) (hn c) h
      generalize prototype did (nw c) h = r at this
      obtain ⟨r, h'⟩ := r
      cases r with
      | error e => exact this
      | ok p => exact this.trans caches_copy
    · exact fun _ _ hp => hp
  · exact fun _ _ hp => hp

theorem caches_fields {T : Table} {N : Nat} {nw : ClsId → Act HVal} (hn : ∀ c h, Caches h (nw c h).2) {did : Str → Nat} :
    ∀ (L : List Field) (h : Heap), Caches h (emptyFields T N nw did L h).2
  | [], _ => fun _ _ hp => hp
  | f :: L, h => by
    have h1 := caches_empty hn (did f.name) f h
    unfold emptyFields
    generalize emptyH nw (did f.name) f h = r at h1
    obtain ⟨r, h'⟩ := r
    cases r with
    | error e => exact h1
    | ok v =>
      simp only [Act.andThen]
      cases f.acceptH T N h' v with
      | error e => exact h1
      | ok w =>
        simp only
        have h2 := caches_fields hn (T := T) (N := N) (did := did) L h'
        generalize emptyFields T N nw did L h' = r at h2
        obtain ⟨r, h''⟩ := r
        cases r <;> exact h1.trans h2

theorem caches_new {T : Table} {did : ClsId → Str → Nat} : ∀ n c h, Caches h (newH T did n c h).2
  | 0, _, _ => fun _ _ hp => hp
  | n + 1, c, h => by
    have h1 := caches_fields (T := T) (N := n) (caches_new (T := T) (did := did) n) (did := did c) (T c).fields h
    unfold newH
    generalize emptyFields T n (newH T did n) (did c) (T c).fields h = r at h1
    obtain ⟨r, h'⟩ := r
    cases r <;> exact h1

/-- The group of a new instance is a copy of the cached instance. -/
theorem group_copy {T : Table} {n : Nat} {did : ClsId → Str → Nat} (hT : T.Wf) {c g : ClsId} {f : Field} (hk : f.kind = .ref)
    (ht : f.type = .complex g) {h h' : Heap} {v : HVal} (he : emptyH (newH T did n) (did c f.name) f h = (.ok v, h')) :
    ∃ p q k pf, v = .ref q ∧ h'.protos.lookup (did c f.name) = some p ∧ h'.cells[p]? = some (.inst k pf) ∧ h'.cells[q]? = some (.inst k pf) ∧
      h.cells.length ≤ q ∧ p ≠ q ∧ (∀ p0, h.protos.lookup (did c f.name) = some p0 → p = p0) := by
  have hcopy : ∀ (h1 : Heap) p, h.cells <+: h1.cells → h1.protos.lookup (did c f.name) = some p →
      (∀ p0, h.protos.lookup (did c f.name) = some p0 → p = p0) → copyInst p h1 = (.ok v, h') →
      ∃ p q k pf, v = .ref q ∧ h'.protos.lookup (did c f.name) = some p ∧ h'.cells[p]? = some (.inst k pf) ∧ h'.cells[q]? = some (.inst k pf) ∧
      h.cells.length ≤ q ∧ p ≠ q ∧ (∀ p0, h.protos.lookup (did c f.name) = some p0 → p = p0) := by
    intro h1 p hpre hl hu hc
    unfold copyInst at hc
    split at hc
    · next k pf hp =>
      injection hc with hc1 hc2
      injection hc1 with hc1
      subst hc1 hc2
      exact ⟨p, h1.cells.length, k, pf, rfl, hl, prefix_get (alloc_prefix _ _) hp, by simp, hpre.length_le, Nat.ne_of_lt (get_lt hp), hu⟩
    · cases hc
  unfold emptyH at he
  simp only [hk, ht] at he
  unfold prototype at he
  cases hl : h.protos.lookup (did c f.name) with
  | some p =>
    rw [hl] at he
    exact hl ▸ hcopy h p (List.prefix_refl _) hl (fun p0 h0 => Option.some.inj (hl.symm.trans h0)) he
  | none =>
    rw [hl] at he
    simp only at he
    have hb := builds_new hT (did := did) n g h
    generalize newH T did n g h = r at he hb
    obtain ⟨r, h2⟩ := r
    have hb1 := (hb _ _ rfl).pre
    cases r with
    | error e => cases he
    | ok o =>
      cases o with
      | nil => cases he
      | atom a => cases he
      | ref a =>
        exact hl ▸ hcopy { h2 with protos := (did c f.name, a) :: h2.protos } a hb1 (by simp) (fun p0 h0 => by rw [hl] at h0; cases h0) he

theorem accept_ref {T : Table} {N : Nat} {h : Heap} {f : Field} {g : ClsId} (hk : f.kind = .ref) (ht : f.type = .complex g) {q : Addr} {w : HVal}
    (ha : f.acceptH T N h (.ref q) = .ok w) : w = .ref q := by
  have := acceptH_accepts (by rw [hk]; decide) ha
  cases this with
  | simple _ h2 => rw [ht] at h2; cases h2
  | inst => rfl
  | header => rfl

/-- The groups of the fields of a new instance. -/
theorem group_fields {T : Table} {n : Nat} {did : ClsId → Str → Nat} (hT : T.Wf) {c g : ClsId} {f : Field} (hk : f.kind = .ref)
    (ht : f.type = .complex g) : ∀ (L : List Field), (L.map (·.name)).Nodup → f ∈ L → ∀ {h h' : Heap} {fs : List (Str × HVal)},
    emptyFields T n (newH T did n) (did c) L h = (.ok fs, h') →
    ∃ p q k pf, Dict.get? fs f.name = some (.ref q) ∧ h'.protos.lookup (did c f.name) = some p ∧ h'.cells[p]? = some (.inst k pf) ∧
      h'.cells[q]? = some (.inst k pf) ∧ h.cells.length ≤ q ∧ p ≠ q ∧ (∀ p0, h.protos.lookup (did c f.name) = some p0 → p = p0)
  | [], _, hf, _, _, _, _ => absurd hf List.not_mem_nil
  | f0 :: L, hn, hf, h, h', fs, he => by
    rw [List.map_cons, List.nodup_cons] at hn
    unfold emptyFields at he
    rcases andThen_eq he with ⟨v, h1, he⟩ | ⟨_, _, he⟩
    · have hc1 := caches_empty (caches_new (T := T) (did := did) n) (did c f0.name) f0 h
      have hb1 := builds_empty (T := T) (fun c h r h' e => builds_new hT (did := did) n c h r h' e)
        (show emptyH (newH T did n) (did c f0.name) f0 h = (_, _) from rfl)
      rcases andThen_eq he with ⟨w, h2, he⟩ | ⟨_, _, he⟩
      · rcases andThen_eq he with ⟨r, h3, he⟩ | ⟨_, _, he⟩
        · simp only [Prod.mk.injEq, Except.ok.injEq] at he
          obtain ⟨rfl, rfl⟩ := he
          simp only at h2 h3 ⊢
          have hpre := (builds_fields (T := T) (N := n) (fun c h r h' e => builds_new hT (did := did) n c h r h' e) (did := did c) L
            (show emptyFields T n (newH T did n) (did c) L (emptyH (newH T did n) (did c f0.name) f0 h).2 = (_, _) from rfl)).1.pre
          have hcache := caches_fields (T := T) (N := n) (caches_new (T := T) (did := did) n) (did := did c) L (emptyH (newH T did n) (did c f0.name) f0 h).2
          rcases List.mem_cons.1 hf with rfl | hf
          · obtain ⟨p, q, k, pf, rfl, e2, e3, e4, e5, e6, e7⟩ := group_copy hT (c := c) hk ht (h := h) (v := v)
              (show emptyH (newH T did n) (did c f.name) f h = (.ok v, (emptyH (newH T did n) (did c f.name) f h).2) from Prod.ext h1 rfl)
            have := accept_ref hk ht h2
            subst this
            exact ⟨p, q, k, pf, dict_cons_self _ _ _, hcache _ _ e2, prefix_get hpre e3, prefix_get hpre e4, e5, e6, e7⟩
          · have hne : f0.name ≠ f.name := fun e => hn.1 (by rw [e]; exact List.mem_map.2 ⟨f, hf, rfl⟩)
            obtain ⟨p, q, k, pf, e1, e2, e3, e4, e5, e6, e7⟩ := group_fields hT hk ht L hn.2 hf (Prod.ext h3 rfl)
            exact ⟨p, q, k, pf, by rw [dict_cons_other _ _ hne]; exact e1, e2, e3, e4, Nat.le_trans hb1.pre.length_le e5, e6,
              fun p0 h0 => e7 p0 (hc1 _ _ h0)⟩
        · cases he
      · cases he
    · cases he

theorem new_group {T : Table} {did : ClsId → Str → Nat} (hT : T.Wf) {N : Nat} {c g : ClsId} {f : Field} (hf : f ∈ (T c).fields)
    (hk : f.kind = .ref) (ht : f.type = .complex g) {h h' : Heap} {x : Addr} (he : newH T did N c h = (.ok (.ref x), h')) :
    ∃ p q k pf fs, h'.cells[x]? = some (.inst c fs) ∧ Dict.get? fs f.name = some (.ref q) ∧ h'.protos.lookup (did c f.name) = some p ∧
      h'.cells[p]? = some (.inst k pf) ∧ h'.cells[q]? = some (.inst k pf) ∧ h.cells.length ≤ q ∧
      p ≠ q ∧ (∀ p0, h.protos.lookup (did c f.name) = some p0 → p = p0) := by
  cases N with
  | zero => cases he
  | succ N =>
    unfold newH at he
    rcases andThen_eq he with ⟨fs, h1, he⟩ | ⟨_, _, he⟩
    · obtain ⟨p, q, k, pf, e1, e2, e3, e4, e5, e6, e7⟩ := group_fields (n := N) (c := c) (did := did) hT hk ht (T c).fields (hT c) hf
        (Prod.ext h1 rfl)
      injection he with he1 he2
      injection he1 with he1
      injection he1 with he1
      subst he1 he2
      exact ⟨p, q, k, pf, fs, by simp, e1, e2, prefix_get (alloc_prefix _ _) e3, prefix_get (alloc_prefix _ _) e4, e5, e6, e7⟩
    · cases he

theorem keep_set {T : Table} {N : Nat} {p a : Addr} (hpa : p ≠ a) {name : Str} {v : HVal} {h : Heap} :
    (setH T N (.ref a) name v h).2.cells[p]? = h.cells[p]? ∧ (setH T N (.ref a) name v h).2.protos = h.protos := by
  rcases setH_cases (show setH T N (.ref a) name v h = ((setH T N (.ref a) name v h).1, (setH T N (.ref a) name v h).2) from rfl) with
    ⟨_, _, e⟩ | ⟨a', c, fs, f, w, ha, _, _, _, _, _, _, e⟩
  · rw [e]; exact ⟨rfl, rfl⟩
  · injection ha with ha
    subst ha
    rw [e]
    exact ⟨put_get_other hpa, rfl⟩

theorem keep_init {T : Table} {N : Nat} {p a : Addr} (hpa : p ≠ a) : ∀ (kw : List (Str × HVal)) {h : Heap},
    (initH T N (.ref a) kw h).2.cells[p]? = h.cells[p]? ∧ (initH T N (.ref a) kw h).2.protos = h.protos
  | [], _ => ⟨rfl, rfl⟩
  | (k, v) :: kw, h => by
    have h1 := keep_set (T := T) (N := N) hpa (name := k) (v := v) (h := h)
    unfold initH
    generalize setH T N (.ref a) k v h = r at h1
    obtain ⟨r, h'⟩ := r
    cases r with
    | error e => exact h1
    | ok u =>
      have h2 := keep_init hpa (T := T) (N := N) kw (h := h')
      exact ⟨h2.1.trans h1.1, h2.2.trans h1.2⟩

/-- An object that no operation assigns to stays as it is. -/
theorem keep_op {T : Table} {did : ClsId → Str → Nat} (hT : T.Wf) {N : Nat} {p : Addr} {op : Op} (hs : SparesObject p op) {h : Heap} {k : ClsId}
    {pf : List (Str × HVal)} (hp : h.cells[p]? = some (.inst k pf)) :
    (op.run T did N h).2.cells[p]? = some (.inst k pf) ∧ Caches h (op.run T did N h).2 := by
  cases op with
  | new c kw =>
    have hb := builds_new hT (did := did) N c h
    have hc := caches_new (T := T) (did := did) N c h
    have hx : ∀ x, (newH T did N c h).1 = .ok x → ∃ a, x = .ref a ∧ h.cells.length ≤ a := by
      intro x hx
      cases N with
      | zero => cases hx
      | succ N =>
        unfold newH at hx
        have hpre := (builds_fields (T := T) (N := N) (fun c h r h' e => builds_new hT (did := did) N c h r h' e) (did := did c) (T c).fields
          (show emptyFields T N (newH T did N) (did c) (T c).fields h = (_, _) from rfl)).1.pre
        generalize emptyFields T N (newH T did N) (did c) (T c).fields h = r at hx hpre
        obtain ⟨r, h'⟩ := r
        cases r with
        | error e => cases hx
        | ok fs =>
          injection hx with hx
          exact ⟨_, hx.symm, hpre.length_le⟩
    show (Act.andThen (newH T did N c h) fun o h => initH T N o kw h).2.cells[p]? = _ ∧
      Caches h (Act.andThen (newH T did N c h) fun o h => initH T N o kw h).2
    generalize newH T did N c h = r at hb hc hx
    obtain ⟨r, h'⟩ := r
    have hpre := (hb _ _ rfl).pre
    cases r with
    | error e => exact ⟨prefix_get hpre hp, hc⟩
    | ok o =>
      obtain ⟨a, rfl, ha⟩ := hx o rfl
      have hpa : p ≠ a := Nat.ne_of_lt (Nat.lt_of_lt_of_le (get_lt hp) ha)
      obtain ⟨h1, h2⟩ := keep_init (T := T) (N := N) hpa kw (h := h')
      refine ⟨h1.trans (prefix_get hpre hp), fun key q hq => ?_⟩
      show List.lookup key (initH T N (.ref a) kw h').2.protos = some q
      rw [h2]
      exact hc key q hq
  | set o name v =>
    cases o with
    | nil => exact ⟨hp, fun _ _ h => h⟩
    | atom a => exact ⟨hp, fun _ _ h => h⟩
    | ref a =>
      have hpa : p ≠ a := by rintro rfl; exact hs name v rfl
      obtain ⟨h1, h2⟩ := keep_set (T := T) (N := N) hpa (name := name) (v := v) (h := h)
      refine ⟨h1.trans hp, fun key q hq => ?_⟩
      show List.lookup key (setH T N (.ref a) name v h).2.protos = some q
      rw [h2]
      exact hq
  | append l v =>
    rcases appendH_cases (show appendH T N l v h = ((appendH T N l v h).1, (appendH T N l v h).2) from rfl) with
      ⟨_, _, e⟩ | ⟨a, items, _, _, ⟨f, w, hc, _, _, e⟩ | ⟨hc, e⟩⟩
    · show (appendH T N l v h).2.cells[p]? = _ ∧ Caches h (appendH T N l v h).2
      rw [e]; exact ⟨hp, fun _ _ h => h⟩
    · show (appendH T N l v h).2.cells[p]? = _ ∧ Caches h (appendH T N l v h).2
      rw [e]
      refine ⟨?_, fun _ _ h => h⟩
      rw [put_get_other (by rintro rfl; rw [hp] at hc; cases hc)]
      exact hp
    · show (appendH T N l v h).2.cells[p]? = _ ∧ Caches h (appendH T N l v h).2
      rw [e]
      refine ⟨?_, fun _ _ h => h⟩
      rw [put_get_other (by rintro rfl; rw [hp] at hc; cases hc)]
      exact hp
  | list items => exact ⟨prefix_get (alloc_prefix _ _) hp, fun _ _ h => h⟩
  | raw l items =>
    cases l with
    | nil => exact ⟨hp, fun _ _ h => h⟩
    | atom a => exact ⟨hp, fun _ _ h => h⟩
    | ref a =>
      simp only [Op.run]
      split
      · next hc =>
        refine ⟨?_, fun _ _ h => h⟩
        rw [put_get_other (by rintro rfl; rw [hp] at hc; cases hc)]
        exact hp
      · exact ⟨hp, fun _ _ h => h⟩

theorem keep_ops {T : Table} {did : ClsId → Str → Nat} (hT : T.Wf) {N : Nat} {p : Addr} {k : ClsId} {pf : List (Str × HVal)} :
    ∀ (ops : List Op) (h : Heap), (∀ op ∈ ops, SparesObject p op) → h.cells[p]? = some (.inst k pf) →
      (runOps T did N ops h).2.cells[p]? = some (.inst k pf) ∧ Caches h (runOps T did N ops h).2
  | [], _, _, hp => ⟨hp, fun _ _ h => h⟩
  | op :: ops, h, hs, hp => by
    obtain ⟨h1, h2⟩ := keep_op hT (did := did) (N := N) (hs op List.mem_cons_self) hp
    obtain ⟨h3, h4⟩ := keep_ops hT (did := did) (N := N) ops _ (fun o ho => hs o (List.mem_cons_of_mem _ ho)) h1
    exact ⟨h3, h2.trans h4⟩

/-- **C98 (groups are shared).** The group of a constructed instance is a copy that shares all lists and other objects with one
hidden object, to which no program has access.  So, whatever happens between, a later instance of the class has a group with the
very same lists: what was appended to the one is in the other. -/
theorem C98_shared (T : Table) (hT : T.Wf) (did : ClsId → Str → Nat) (N : Nat) (c g : ClsId) (f : Field) (hf : f ∈ (T c).fields)
    (hk : f.kind = .ref) (ht : f.type = .complex g) (h h1 : Heap) (x : Addr) (hx : newH T did N c h = (.ok (.ref x), h1)) :
    ∃ hidden gx fs k group, h1.cells[x]? = some (.inst c fs) ∧ Dict.get? fs f.name = some (.ref gx) ∧ hidden ≠ gx ∧
      h1.cells[gx]? = some (.inst k group) ∧
      ∀ (ops : List Op) (h2 : Heap) (y : Addr), (∀ op ∈ ops, SparesObject hidden op) →
        newH T did N c (runOps T did N ops h1).2 = (.ok (.ref y), h2) →
        ∃ gy fs', h2.cells[y]? = some (.inst c fs') ∧ Dict.get? fs' f.name = some (.ref gy) ∧ gy ≠ gx ∧ h2.cells[gy]? = some (.inst k group) := by
  obtain ⟨p, q, k, pf, fs, e1, e2, e3, e4, e5, _, e6, _⟩ := new_group hT hf hk ht hx
  refine ⟨p, q, fs, k, pf, e1, e2, e6, e5, fun ops h2 y hs hy => ?_⟩
  obtain ⟨k1, k2⟩ := keep_ops hT (did := did) (N := N) ops h1 hs e4
  obtain ⟨p', q', k', pf', fs', i1, i2, i3, i4, i5, i6, _, i7⟩ := new_group hT hf hk ht hy
  obtain ⟨_, hq⟩ := (good_runOps hT ops h1).2 q k pf e5
  refine ⟨q', fs', i1, i2, Nat.ne_of_gt (Nat.lt_of_lt_of_le (get_lt hq) i6), ?_⟩
  have hpre := (builds_new hT (did := did) N c (runOps T did N ops h1).2 _ _ hy).pre
  have := i7 p (k2 _ _ e3)
  subst this
  have hp := prefix_get hpre k1
  rw [i4] at hp
  rw [i5]
  exact hp

/-! ### A polluted program -/

namespace Ex

/-- `x = Owner(); x.group.tags.append('secret')` -/
def polluting : List Deed := [.op (.new 0 []), .op (.append (.ref 0) (.atom (.str py"secret")))]

/-- `<Owner><tag>mine</tag></Owner>` -/
def ownerDoc : Xml := .elem ⟨none, py"Owner"⟩ [] none [.elem ⟨none, py"tag"⟩ [] (some py"mine") []]

theorem sharing_fields (c : ClsId) (f : Field) (hf : f ∈ (sharing c).fields) :
    f = { name := py"tags", kind := .list, type := .simple (.string {}), tagname := some py"tag" } ∨
    f = { name := py"group", kind := .ref, type := .complex 1 } := by
  unfold sharing at hf
  split at hf
  · exact .inl (List.mem_singleton.1 hf)
  · exact .inr (List.mem_singleton.1 hf)

theorem sharing_wf : sharing.Wf := by
  intro c
  unfold sharing
  split <;> simp

/-- Descriptors told apart by the names of their fields. -/
def sharingIds : ClsId → Str → Nat := fun _ n => n.length

theorem sharing_descriptors : Descriptors sharing sharingIds := by
  intro c f c' f' hf hf' he
  rcases sharing_fields c f hf with rfl | rfl <;> rcases sharing_fields c' f' hf' with rfl | rfl <;> first | rfl | cases he

theorem sharing_defaults : PlainDefaults sharing := by
  intro c f hf
  rcases sharing_fields c f hf with rfl | rfl <;> exact .inr ⟨_, rfl⟩

/-- The instance parsed after the pollution has its own tag only ... -/
example : ∃ o h', parseClsH sharing sharingIds 5 5 0 ownerDoc (runDeeds sharing sharingIds 5 polluting {}) = (.ok o, h') ∧
    Shows h' (runDeeds sharing sharingIds 5 polluting {}).cells.length o
      (.inst 0 [(py"group", .inst 1 [(py"tags", .list true [.atom (.str py"mine")])] (some ownerDoc))] (some ownerDoc)) ∧
    Untouched (runDeeds sharing sharingIds 5 polluting {}) h' :=
  C98_parse sharing sharing_wf sharingIds sharing_descriptors sharing_defaults 5 polluting 5 0 ownerDoc _ rfl

/-- ... but the one constructed after it has the tag of another instance. -/
example : ∃ h y gy l, newH sharing sharingIds 5 0 (runDeeds sharing sharingIds 5 polluting {}) = (.ok (.ref y), h) ∧
    h.cells[y]? = some (.inst 0 [(py"group", .ref gy)]) ∧ h.cells[gy]? = some (.inst 1 [(py"tags", .ref l)]) ∧
    ∃ f, h.cells[l]? = some (.list (some f) [.atom (.str py"secret")]) :=
  ⟨_, _, _, _, rfl, rfl, rfl, _, rfl⟩

end Ex

end Soapfish
