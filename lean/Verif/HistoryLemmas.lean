import Verif.Spec.History
import Verif.HeapLemmas
import Verif.ComplexLemmas
/-
Parsing on the heap follows parsing of trees.
-/
namespace Soapfish

/-! ### Following -/

/-- An action on the heap follows a computation on trees: it returns what belongs together, or raises the same exception.
`F` holds of the heap afterwards. -/
def Follows {α β : Type} (F : Heap → Prop) (r : Except Exn α) (s : Except Exn β × Heap) (R : α → β → Heap → Prop) : Prop :=
  match r with
  | .ok a => ∃ b, s.1 = .ok b ∧ F s.2 ∧ R a b s.2
  | .error e => s.1 = .error e ∧ F s.2

theorem Follows.bind {α β γ δ : Type} {F : Heap → Prop} {r : Except Exn α} {s : Except Exn β × Heap} {R : α → β → Heap → Prop}
    {f : α → Except Exn γ} {k : β → Act δ} {R' : γ → δ → Heap → Prop} (h : Follows F r s R)
    (hk : ∀ a b h, F h → R a b h → Follows F (f a) (k b h) R') : Follows F (r >>= f) (Act.andThen s k) R' := by
  obtain ⟨s, h'⟩ := s
  cases r with
  | ok a =>
    obtain ⟨b, hb, hF, hR⟩ := h
    cases hb
    exact hk a b h' hF hR
  | error e =>
    obtain ⟨h, hF⟩ := h
    cases h
    exact ⟨rfl, hF⟩

theorem Follows.imp {α β : Type} {F F' : Heap → Prop} {r : Except Exn α} {s : Except Exn β × Heap} {R R' : α → β → Heap → Prop}
    (h : Follows F r s R) (hF : ∀ h, F h → F' h) (hR : ∀ a b h, F h → R a b h → R' a b h) : Follows F' r s R' := by
  cases r with
  | ok a =>
    obtain ⟨b, hb, h1, h2⟩ := h
    exact ⟨b, hb, hF _ h1, hR _ _ _ h1 h2⟩
  | error e =>
    exact ⟨h.1, hF _ h.2⟩

/-- A computation that does not touch the heap. -/
theorem Follows.pure {α : Type} {F : Heap → Prop} {r : Except Exn α} {h : Heap} (hF : F h) :
    Follows F r (r, h) fun a b h' => a = b ∧ h' = h := by
  cases r with
  | ok a => exact ⟨a, rfl, hF, rfl, rfl⟩
  | error e => exact ⟨rfl, hF⟩

theorem Follows.fold {α σ : Type} {F : Heap → Prop} {f : σ → α → Except Exn σ} {g : α → Act HVal} {R : σ → Heap → Prop} :
    ∀ (l : List α) (s : σ) (h : Heap), F h → R s h →
      (∀ a ∈ l, ∀ s h, F h → R s h → Follows F (f s a) (g a h) fun s _ h => R s h) →
      Follows F (foldE f s l) (forH g l h) fun s _ h => R s h
  | [], _, _, hF, hR, _ => ⟨HVal.none, rfl, hF, hR⟩
  | a :: l, s, h, hF, hR, hstep =>
    (hstep a List.mem_cons_self s h hF hR).bind fun s _ h hF hR =>
      Follows.fold l s h hF hR fun b hb => hstep b (List.mem_cons_of_mem _ hb)

/-! ### What objects hold -/

theorem Shows.mono {h h' : Heap} {lo lo' : Addr} {v : HVal} {w : Val} (hs : Shows h lo v w) (hlo : lo' ≤ lo)
    (hc : ∀ a, lo ≤ a → ∀ c, h.cells[a]? = some c → h'.cells[a]? = some c) : Shows h' lo' v w := by
  induction hs with
  | nil => exact .nil
  | atom a => exact .atom a
  | list ha hcell hlen _ ih => exact .list (Nat.le_trans hlo ha) (hc _ ha _ hcell) hlen fun i v w h1 h2 => ih i v w h1 h2
  | inst ha hcell hn _ ih => exact .inst (Nat.le_trans hlo ha) (hc _ ha _ hcell) hn fun n v w h1 h2 => ih n v w h1 h2

/-- The items of a list. -/
def ItemsShow (h : Heap) (lo : Addr) (items : List HVal) (vs : List Val) : Prop :=
  items.length = vs.length ∧ ∀ (i : Nat) v w, items[i]? = some v → vs[i]? = some w → Shows h lo v w

theorem ItemsShow.mono {h h' : Heap} {lo lo' : Addr} {items : List HVal} {vs : List Val} (hs : ItemsShow h lo items vs) (hlo : lo' ≤ lo)
    (hc : ∀ a, lo ≤ a → ∀ c, h.cells[a]? = some c → h'.cells[a]? = some c) : ItemsShow h' lo' items vs :=
  ⟨hs.1, fun i v w h1 h2 => (hs.2 i v w h1 h2).mono hlo hc⟩

theorem ItemsShow.snoc {h : Heap} {lo : Addr} {items : List HVal} {vs : List Val} {v : HVal} {w : Val} (hs : ItemsShow h lo items vs)
    (hv : Shows h lo v w) : ItemsShow h lo (items ++ [v]) (vs ++ [w]) := by
  refine ⟨by simp [hs.1], fun i a b ha hb => ?_⟩
  rw [List.getElem?_append] at ha hb
  rw [← hs.1] at hb
  split at ha
  · next hi => rw [if_pos hi] at hb; exact hs.2 i a b ha hb
  · next hi =>
    rw [if_neg hi] at hb
    cases hk : i - items.length with
    | zero =>
      rw [hk] at ha hb
      injection ha with ha
      injection hb with hb
      rw [← ha, ← hb]; exact hv
    | succ k => rw [hk] at ha; simp at ha

/-- A type accepts what an object holds exactly as it accepts the object. -/
theorem acceptItemH_follows {T : Table} {h : Heap} {lo : Addr} {f : Field} {v : HVal} {w : Val} (hs : Shows h lo v w) :
    (∃ e, f.acceptItem T w = .error e ∧ f.acceptItemH T h v = .error e) ∨
    ∃ w' v', f.acceptItem T w = .ok w' ∧ f.acceptItemH T h v = .ok v' ∧ Shows h lo v' w' := by
  unfold Field.acceptItem Field.acceptItemH
  have hatom : ∀ s : SType, w.toAtom = v.toAtom → (∃ e, (s.accept w.toAtom).map Val.atom = .error e ∧ (s.accept v.toAtom).map HVal.atom = .error e) ∨
      ∃ w' v', (s.accept w.toAtom).map Val.atom = .ok w' ∧ (s.accept v.toAtom).map HVal.atom = .ok v' ∧ Shows h lo v' w' := by
    intro s he
    rw [he]
    cases s.accept v.toAtom with
    | error e => exact .inl ⟨e, rfl, rfl⟩
    | ok a => exact .inr ⟨_, _, rfl, rfl, .atom a⟩
  cases hs with
  | nil =>
    cases f.nillable with
    | false => exact .inl ⟨_, rfl, rfl⟩
    | true => exact .inr ⟨_, _, rfl, rfl, .nil⟩
  | atom a =>
    simp only [Val.isNil, Bool.false_eq_true, if_false, reduceCtorEq]
    unfold FType.accept FType.acceptH
    cases f.type with
    | simple s => exact hatom s rfl
    | any => exact .inl ⟨_, rfl, rfl⟩
    | complex c =>
      unfold acceptCls
      simp only
      split
      · exact .inr ⟨_, _, rfl, rfl, .atom a⟩
      · cases a with
        | none => exact .inr ⟨_, _, rfl, rfl, .atom _⟩
        | _ => exact .inl ⟨_, rfl, rfl⟩
  | @list a o items vs ha hcell hlen hi =>
    simp only [Val.isNil, Bool.false_eq_true, if_false, reduceCtorEq]
    unfold FType.accept FType.acceptH
    cases f.type with
    | simple s => exact hatom s rfl
    | any => exact .inl ⟨_, rfl, rfl⟩
    | complex c =>
      unfold acceptCls
      simp only
      split
      · exact .inr ⟨_, _, rfl, rfl, .list ha hcell hlen hi⟩
      · have : isInst T h a c = false := by unfold isInst; rw [hcell]
        rw [this]
        exact .inl ⟨_, rfl, rfl⟩
  | @inst a c' fs vs x ha hcell hn hi =>
    simp only [Val.isNil, Bool.false_eq_true, if_false, reduceCtorEq]
    unfold FType.accept FType.acceptH
    cases f.type with
    | simple s => exact hatom s rfl
    | any => exact .inl ⟨_, rfl, rfl⟩
    | complex c =>
      unfold acceptCls
      simp only
      split
      · exact .inr ⟨_, _, rfl, rfl, .inst ha hcell hn hi⟩
      · have : isInst T h a c = isSub T c' c := by unfold isInst; rw [hcell]
        rw [this]
        split
        · exact .inr ⟨_, _, rfl, rfl, .inst ha hcell hn hi⟩
        · exact .inl ⟨_, rfl, rfl⟩

theorem acceptH_follows {T : Table} {N : Nat} {h : Heap} {lo : Addr} {F : Heap → Prop} {f : Field} {v : HVal} {w : Val} (hF : F h)
    (hk : f.kind ≠ .list) (hs : Shows h lo v w) :
    Follows F (f.accept T (newInst T N) w) (f.acceptH T N h v, h) fun w' v' h' => h' = h ∧ Shows h lo v' w' := by
  unfold Field.accept Field.acceptH
  rw [if_neg hk, if_neg hk]
  cases hev : evaluate (newInst T N) f.type with
  | error e => exact ⟨rfl, hF⟩
  | ok u =>
    show Follows F (f.acceptItem T w) (f.acceptItemH T h v, h) _
    rcases acceptItemH_follows (T := T) (f := f) hs with ⟨e, h1, h2⟩ | ⟨w', v', h1, h2, h3⟩
    · rw [h1, h2]; exact ⟨rfl, hF⟩
    · rw [h1, h2]; exact ⟨v', rfl, hF, rfl, h3⟩

/-! ### New instances -/

/-- The instances cached by Ref descriptors are of the right classes. -/
def Protos (T : Table) (did : ClsId → Str → Nat) (h : Heap) : Prop :=
  ∀ c f g p, f ∈ (T c).fields → f.kind = .ref → f.type = .complex g → h.protos.lookup (did c f.name) = some p →
    ∃ fs, h.cells[p]? = some (.inst g fs)

theorem Protos.keep {T : Table} {did : ClsId → Str → Nat} {h h' : Heap} (hp : Protos T did h) (hk : KeepsClasses h h')
    (he : h'.protos = h.protos) : Protos T did h' := by
  intro c f g p hf hkind ht hl
  rw [he] at hl
  obtain ⟨fs, hc⟩ := hp c f g p hf hkind ht hl
  exact hk p g fs hc

/-- Nothing below `lo` is touched. -/
structure Frame (T : Table) (did : ClsId → Str → Nat) (h : Heap) (lo : Addr) (h' : Heap) : Prop where
  len : h.cells.length ≤ h'.cells.length
  same : ∀ b, b < lo → h'.cells[b]? = h.cells[b]?
  protos : Protos T did h'

theorem frame_prefix {T : Table} {did : ClsId → Str → Nat} {h h' : Heap} (hp : h.cells <+: h'.cells) (hpr : Protos T did h') :
    Frame T did h h.cells.length h' := by
  refine ⟨hp.length_le, fun b hb => ?_, hpr⟩
  obtain ⟨t, ht⟩ := hp
  rw [← ht, List.getElem?_append_left hb]

/-- How a new instance starts: attributes and single elements hold atoms, lists are new and empty.  Nothing is said about
groups. -/
def Starts (h : Heap) (lo : Addr) (f : Field) (v : Option HVal) (w : Option Val) : Prop :=
  if f.kind = .list then ∃ l, v = some (.ref l) ∧ w = some (.list true []) ∧ lo ≤ l ∧ h.cells[l]? = some (.list (some f) [])
  else f.kind.isGroup = false → ∃ v' w', v = some v' ∧ w = some w' ∧ Shows h h.cells.length v' w'

theorem Shows.bare {h h' : Heap} {lo lo' : Addr} {v : HVal} {w : Val} (hlo : h.cells.length ≤ lo) (hs : Shows h lo v w) : Shows h' lo' v w := by
  cases hs with
  | nil => exact .nil
  | atom a => exact .atom a
  | list ha hc => rw [List.getElem?_eq_none (Nat.le_trans hlo ha)] at hc; cases hc
  | inst ha hc => rw [List.getElem?_eq_none (Nat.le_trans hlo ha)] at hc; cases hc

theorem Starts.mono {h h' : Heap} {lo lo' : Addr} {f : Field} {v : Option HVal} {w : Option Val} (hs : Starts h lo f v w)
    (hp : h.cells <+: h'.cells) (hlo : lo' ≤ lo) : Starts h' lo' f v w := by
  unfold Starts at hs ⊢
  split
  · next hk =>
    rw [if_pos hk] at hs
    obtain ⟨l, h1, h2, h3, h4⟩ := hs
    exact ⟨l, h1, h2, Nat.le_trans hlo h3, prefix_get hp h4⟩
  · next hk =>
    rw [if_neg hk] at hs
    intro hg
    obtain ⟨v', w', h1, h2, h3⟩ := hs hg
    exact ⟨v', w', h1, h2, h3.bare (Nat.le_refl _)⟩

/-- The fields of a new instance. -/
def StartFields (h : Heap) (lo : Addr) (L : List Field) (fs : List (Str × HVal)) (vs : List (Str × Val)) : Prop :=
  fs.map (·.1) = L.map (·.name) ∧ vs.map (·.1) = L.map (·.name) ∧
    ∀ f ∈ L, Starts h lo f (Dict.get? fs f.name) (Dict.get? vs f.name)

section
variable {T : Table} {did : ClsId → Str → Nat} (hT : T.Wf) (hd : Descriptors T did) (hdef : PlainDefaults T)

/-- What instantiating a class on the heap has to do with the tree. -/
def NewFollows (T : Table) (did : ClsId → Str → Nat) (n : Nat) : Prop := ∀ c h, Protos T did h →
  Follows (fun h' => h.cells <+: h'.cells ∧ Protos T did h') (newInst T n c) (newH T did n c h) fun v o h' =>
    ∃ a fs vs, v = .inst c vs none ∧ o = .ref a ∧ h'.cells[a]? = some (.inst c fs) ∧ h.cells.length ≤ a ∧ a + 1 = h'.cells.length ∧
      StartFields h' h.cells.length (T c).fields fs vs

include hd in
/-- The empty value of a field that is a group. -/
theorem group_follows {n : Nat} (ih : NewFollows T did n) {c : ClsId} {f : Field} (hf : f ∈ (T c).fields) (hk : f.kind = .ref)
    {h : Heap} (hp : Protos T did h) :
    Follows (fun h' => h.cells <+: h'.cells ∧ Protos T did h')
      (emptyValue (newInst T n) f >>= fun v => f.accept T (newInst T n) v)
      (Act.andThen (emptyH (newH T did n) (did c f.name) f h) fun v h => (f.acceptH T n h v, h)) fun _ _ _ => True := by
  unfold emptyValue emptyH
  simp only [hk]
  have hnl : f.kind ≠ .list := by rw [hk]; decide
  cases ht : f.type with
  | simple s =>
    refine Follows.imp (acceptH_follows (F := fun h' => h' = h) (lo := 0) rfl hnl (.atom (.other 1))) ?_ (fun _ _ _ _ _ => trivial)
    rintro h' rfl
    exact ⟨List.prefix_refl _, hp⟩
  | any =>
    refine Follows.imp (acceptH_follows (F := fun h' => h' = h) (lo := 0) rfl hnl (.atom (.other 1))) ?_ (fun _ _ _ _ _ => trivial)
    rintro h' rfl
    exact ⟨List.prefix_refl _, hp⟩
  | complex g =>
    simp only
    -- the copy of the instance at `p` is accepted as a new one is
    have hcopy : ∀ (h1 : Heap) p fs, h.cells <+: h1.cells → Protos T did h1 → h1.cells[p]? = some (.inst g fs) →
        Follows (fun h' => h.cells <+: h'.cells ∧ Protos T did h')
          (newInst T n g >>= fun v => f.accept T (newInst T n) v)
          (Act.andThen (copyInst p h1) fun v h => (f.acceptH T n h v, h)) fun _ _ _ => True := by
      intro h1 p fs hpre hp1 hc
      unfold copyInst
      rw [hc]
      have hfin : h.cells <+: (h1.alloc (.inst g fs)).2.cells ∧ Protos T did (h1.alloc (.inst g fs)).2 :=
        ⟨hpre.trans (alloc_prefix _ _), hp1.keep (prefix_keeps (alloc_prefix _ _)) rfl⟩
      simp only [Act.andThen]
      cases hn : newInst T n g with
      | error e =>
        refine ⟨?_, hfin⟩
        unfold Field.acceptH
        rw [if_neg hnl, ht]
        have hev : evaluate (newInst T n) (.complex g) = .error e := by
          show Except.map _ (newInst T n g) = _
          rw [hn]
          rfl
        rw [hev]
        rfl
      | ok v =>
        have hv : ∃ vs, v = .inst g vs none := by
          cases n with
          | zero => cases hn
          | succ n =>
            obtain ⟨fs, _, h2⟩ := bind_eq_ok.1 (show (mapE _ (T g).fields >>= fun fs => Except.ok (Val.inst g fs none)) = .ok v from hn)
            injection h2 with h2
            exact ⟨fs, h2.symm⟩
        obtain ⟨vs, rfl⟩ := hv
        show Follows _ (f.accept T (newInst T n) (.inst g vs none)) _ _
        unfold Field.accept Field.acceptH
        rw [if_neg hnl, if_neg hnl, ht]
        have hev : evaluate (newInst T n) (.complex g) = .ok () := by
          show Except.map _ (newInst T n g) = _
          rw [hn]
          rfl
        rw [hev]
        simp only [bind, Except.bind]
        unfold Field.acceptItem Field.acceptItemH FType.accept FType.acceptH
        simp only [Val.isNil, Bool.false_eq_true, if_false, reduceCtorEq, ht]
        unfold acceptCls
        simp only
        split
        · exact ⟨_, rfl, hfin, trivial⟩
        · have : isInst T (h1.alloc (.inst g fs)).2 (h1.alloc (.inst g fs)).1 g = isSub T g g := by
            unfold isInst
            simp [Heap.alloc]
          rw [this]
          split
          · exact ⟨_, rfl, hfin, trivial⟩
          · exact ⟨rfl, hfin⟩
    unfold prototype
    cases hl : h.protos.lookup (did c f.name) with
    | some p =>
      obtain ⟨fs, hc⟩ := hp c f g p hf hk ht hl
      exact hcopy h p fs (List.prefix_refl _) hp hc
    | none =>
      have hnew := ih g h hp
      cases hn : newInst T n g with
      | error e =>
        rw [hn] at hnew
        obtain ⟨h1, h2⟩ := hnew
        simp only
        generalize newH T did n g h = r at h1 h2
        obtain ⟨r, h'⟩ := r
        cases h1
        exact ⟨rfl, h2⟩
      | ok v =>
        rw [hn] at hnew
        obtain ⟨o, h1, ⟨hpre, hp'⟩, a, fs, vs, rfl, rfl, hc, _⟩ := hnew
        simp only
        generalize newH T did n g h = r at h1 hpre hp' hc
        obtain ⟨r, h'⟩ := r
        cases h1
        simp only [Act.andThen]
        have := hcopy { h' with protos := (did c f.name, a) :: h'.protos } a fs hpre (by
          intro c2 f2 g2 p2 hf2 hk2 ht2 hl2
          rw [List.lookup_cons] at hl2
          split at hl2
          · next he =>
            injection hl2 with hl2
            subst hl2
            have hff := hd c2 f2 c f hf2 hf (by simpa using he)
            subst hff
            rw [ht] at ht2
            injection ht2 with ht2
            subst ht2
            exact ⟨fs, hc⟩
          · exact hp' c2 f2 g2 p2 hf2 hk2 ht2 hl2) hc
        rw [hn] at this
        exact this

theorem dict_cons_self {α : Type} (d : Dict α) (k : Str) (v : α) : Dict.get? ((k, v) :: d) k = some v := by
  unfold Dict.get?
  rw [if_pos rfl]

theorem dict_cons_other {α : Type} (d : Dict α) {k k' : Str} (v : α) (h : k ≠ k') : Dict.get? ((k, v) :: d) k' = Dict.get? d k' := by
  rw [Dict.get?, if_neg h]

include hd hdef in
/-- The first value of a field. -/
theorem start_follows {n : Nat} (ih : NewFollows T did n) {c : ClsId} {f : Field} (hf : f ∈ (T c).fields) {h : Heap}
    (hp : Protos T did h) :
    Follows (fun h' => h.cells <+: h'.cells ∧ Protos T did h')
      (emptyValue (newInst T n) f >>= fun v => f.accept T (newInst T n) v)
      (Act.andThen (emptyH (newH T did n) (did c f.name) f h) fun v h => (f.acceptH T n h v, h))
      fun w v h' => Starts h' h.cells.length f (some v) (some w) := by
  have hbare : ∀ (v : HVal) (w : Val), Shows h h.cells.length v w → f.kind ≠ .list →
      Follows (fun h' => h.cells <+: h'.cells ∧ Protos T did h') (f.accept T (newInst T n) w) (f.acceptH T n h v, h)
        fun w v h' => Starts h' h.cells.length f (some v) (some w) := by
    intro v w hs hnl
    refine Follows.imp (acceptH_follows (F := fun h' => h' = h) (lo := h.cells.length) rfl hnl hs) ?_ ?_
    · rintro h' rfl
      exact ⟨List.prefix_refl _, hp⟩
    · rintro w v h' _ ⟨rfl, hs⟩
      unfold Starts
      rw [if_neg hnl]
      exact fun _ => ⟨v, w, rfl, rfl, hs⟩
  have hdefault : ∀ (_ : f.kind ≠ .list), Follows (fun h' => h.cells <+: h'.cells ∧ Protos T did h')
      (f.accept T (newInst T n) f.default) (f.acceptH T n h f.default.toH, h)
        fun w v h' => Starts h' h.cells.length f (some v) (some w) := by
    intro hnl
    rcases hdef c f hf with hd | ⟨a, hd⟩
    · rw [hd]; exact hbare _ _ .nil hnl
    · rw [hd]; exact hbare _ _ (.atom a) hnl
  cases hk : f.kind with
  | list =>
    unfold emptyValue emptyH Field.accept Field.acceptH
    simp only [hk, if_true, Act.andThen]
    refine ⟨_, rfl, ⟨alloc_prefix _ _, hp.keep (prefix_keeps (alloc_prefix _ _)) rfl⟩, ?_⟩
    show Starts _ _ _ _ _
    unfold Starts
    rw [if_pos hk]
    exact ⟨_, rfl, rfl, Nat.le_refl _, by simp [Heap.alloc]⟩
  | ref =>
    refine Follows.imp (group_follows hd ih hf hk hp) (fun _ h => h) fun w v h' _ _ => ?_
    unfold Starts
    rw [if_neg (by rw [hk]; decide), hk]
    intro h; cases h
  | content =>
    have := hbare HVal.none Val.none (.atom _) (by rw [hk]; decide)
    unfold emptyValue emptyH
    simp only [hk]
    exact this
  | element =>
    have := hdefault (by rw [hk]; decide)
    unfold emptyValue emptyH
    simp only [hk]
    exact this
  | classNamed =>
    have := hdefault (by rw [hk]; decide)
    unfold emptyValue emptyH
    simp only [hk]
    exact this
  | «attribute» =>
    have := hdefault (by rw [hk]; decide)
    unfold emptyValue emptyH
    simp only [hk]
    exact this

theorem andThen_assoc {α β γ : Type} (r : Except Exn α × Heap) (k : α → Act β) (k' : β → Act γ) :
    Act.andThen (Act.andThen r k) k' = Act.andThen r fun a h => Act.andThen (k a h) k' := by
  obtain ⟨r, h⟩ := r
  cases r <;> rfl

include hd hdef in
/-- The first values of all fields. -/
theorem starts_follow {n : Nat} (ih : NewFollows T did n) {c : ClsId} : ∀ (L : List Field), (∀ f ∈ L, f ∈ (T c).fields) →
    (L.map (·.name)).Nodup → ∀ (h : Heap), Protos T did h →
    Follows (fun h' => h.cells <+: h'.cells ∧ Protos T did h')
      (mapE (fun f => do
        let v ← emptyValue (newInst T n) f
        let w ← f.accept T (newInst T n) v
        .ok (f.name, w)) L)
      (emptyFields T n (newH T did n) (did c) L h) fun vs fs h' => StartFields h' h.cells.length L fs vs := by
  intro L
  induction L with
  | nil =>
    intro _ _ h hp
    exact ⟨[], rfl, ⟨List.prefix_refl _, hp⟩, rfl, rfl, fun f hf => absurd hf List.not_mem_nil⟩
  | cons f L ihL =>
    intro hL hn h hp
    rw [List.map_cons, List.nodup_cons] at hn
    have h1 := start_follows hd hdef ih (hL f List.mem_cons_self) hp
    have key : mapE (fun f => do
        let v ← emptyValue (newInst T n) f
        let w ← f.accept T (newInst T n) v
        Except.ok (f.name, w)) (f :: L) =
        ((emptyValue (newInst T n) f >>= fun v => f.accept T (newInst T n) v) >>= fun w =>
          mapE (fun f => do
            let v ← emptyValue (newInst T n) f
            let w ← f.accept T (newInst T n) v
            Except.ok (f.name, w)) L >>= fun r => .ok ((f.name, w) :: r)) := by
      rw [mapE]
      cases emptyValue (newInst T n) f with
      | error e => rfl
      | ok v =>
        simp only [bind, Except.bind]
        cases f.accept T (newInst T n) v <;> rfl
    rw [key]
    unfold emptyFields
    rw [← andThen_assoc]
    refine h1.bind fun w v h2 ⟨hpre, hp2⟩ hs => ?_
    refine Follows.bind (Follows.imp (ihL (fun g hg => hL g (List.mem_cons_of_mem _ hg)) hn.2 h2 hp2)
      (fun h' h => ⟨hpre.trans h.1, h.2⟩) (R' := fun vs fs h' => h2.cells <+: h'.cells ∧ StartFields h' h2.cells.length L fs vs)
      (fun _ _ _ hF h => ⟨hF.1, h⟩)) fun vs fs h3 hF ⟨hpre3, hsf⟩ => ?_
    obtain ⟨e1, e2, e3⟩ := hsf
    refine ⟨_, rfl, hF, by simp [e1], by simp [e2], fun g hg => ?_⟩
    rcases List.mem_cons.1 hg with rfl | hg
    · rw [dict_cons_self, dict_cons_self]
      exact hs.mono hpre3 (Nat.le_refl _)
    · have hne : f.name ≠ g.name := fun he => hn.1 (by rw [he]; exact List.mem_map.2 ⟨g, hg, rfl⟩)
      rw [dict_cons_other _ _ hne, dict_cons_other _ _ hne]
      exact (e3 g hg).mono (List.prefix_refl _) hpre.length_le

include hT hd hdef in
theorem new_follows : ∀ n, NewFollows T did n := by
  intro n
  induction n with
  | zero => intro c h hp; exact ⟨rfl, List.prefix_refl _, hp⟩
  | succ n ih =>
    intro c h hp
    have h1 := starts_follow hd hdef ih (T c).fields (fun _ h => h) (hT c) h hp
    refine Follows.bind h1 fun vs fs h' ⟨hpre, hp'⟩ hs => ?_
    refine ⟨_, rfl, ⟨hpre.trans (alloc_prefix _ _), hp'.keep (prefix_keeps (alloc_prefix _ _)) rfl⟩,
      h'.cells.length, fs, vs, rfl, rfl, by simp [Heap.alloc], hpre.length_le, by simp [Heap.alloc], hs.1, hs.2.1, fun f hf => ?_⟩
    exact (hs.2.2 f hf).mono (alloc_prefix _ _) (Nat.le_refl _)

/-! ### An instance while it is parsed -/

/-- A field of the instance at `a` holds what it should; its list, if it is one, is its own. -/
def Holds (h : Heap) (lo a : Addr) (f : Field) (v : Option HVal) (w : Option Val) : Prop :=
  if f.kind = .list then ∃ l items ws, v = some (.ref l) ∧ w = some (.list true ws) ∧ lo ≤ l ∧ l < a ∧
    h.cells[l]? = some (.list (some f) items) ∧ ItemsShow h (a + 1) items ws
  else ∃ v' w', v = some v' ∧ w = some w' ∧ Shows h (a + 1) v' w'

/-- The instance at `a` holds the tree `i`, except for the fields in `P`. -/
def Mid (T : Table) (h : Heap) (lo a : Addr) (c : ClsId) (P : Field → Prop) (i : Val) : Prop :=
  ∃ fs vs x, i = .inst c vs x ∧ h.cells[a]? = some (.inst c fs) ∧ lo ≤ a ∧ fs.map (·.1) = (T c).fields.map (·.name) ∧
    vs.map (·.1) = (T c).fields.map (·.name) ∧ ∀ f ∈ (T c).fields, ¬ P f → Holds h lo a f (Dict.get? fs f.name) (Dict.get? vs f.name)

theorem Mid.weaken {h : Heap} {lo a : Addr} {c : ClsId} {P P' : Field → Prop} {i : Val} (hm : Mid T h lo a c P i)
    (hP : ∀ f ∈ (T c).fields, P f → P' f) : Mid T h lo a c P' i := by
  obtain ⟨fs, vs, x, h1, h2, h3, h4, h5, h6⟩ := hm
  exact ⟨fs, vs, x, h1, h2, h3, h4, h5, fun f hf hp => h6 f hf fun hq => hp (hP f hf hq)⟩

theorem Mid.lt {h : Heap} {lo a : Addr} {c : ClsId} {P : Field → Prop} {i : Val} (hm : Mid T h lo a c P i) : a < h.cells.length := by
  obtain ⟨fs, vs, x, h1, h2, _⟩ := hm
  exact (List.getElem?_eq_some_iff.1 h2).1

theorem get_lt {h : Heap} {a : Addr} {c : Cell} (e : h.cells[a]? = some c) : a < h.cells.length := (List.getElem?_eq_some_iff.1 e).1

theorem Untouched.get {h h' : Heap} (hu : Untouched h h') {a : Addr} {c : Cell} (e : h.cells[a]? = some c) : h'.cells[a]? = some c := by
  rw [hu a (get_lt e)]; exact e

theorem Mid.frame {h h' : Heap} {lo a : Addr} {c : ClsId} {P : Field → Prop} {i : Val} (hm : Mid T h lo a c P i)
    (hu : Untouched h h') : Mid T h' lo a c P i := by
  obtain ⟨fs, vs, x, h1, h2, h3, h4, h5, h6⟩ := hm
  refine ⟨fs, vs, x, h1, hu.get h2, h3, h4, h5, fun f hf hp => ?_⟩
  have := h6 f hf hp
  unfold Holds at this ⊢
  split
  · next hk =>
    rw [if_pos hk] at this
    obtain ⟨l, items, ws, e1, e2, e3, e4, e5, e6⟩ := this
    exact ⟨l, items, ws, e1, e2, e3, e4, hu.get e5, e6.mono (Nat.le_refl _) fun b _ _ hc => hu.get hc⟩
  · next hk =>
    rw [if_neg hk] at this
    obtain ⟨v', w', e1, e2, e3⟩ := this
    exact ⟨v', w', e1, e2, e3.mono (Nat.le_refl _) fun b _ _ hc => hu.get hc⟩

/-- What is changed in the course of parsing: objects made since. -/
abbrev Since (T : Table) (did : ClsId → Str → Nat) (h0 : Heap) : Heap → Prop := Frame T did h0 h0.cells.length

theorem Since.put {h0 h : Heap} (hF : Since T did h0 h) {a : Addr} (ha : h0.cells.length ≤ a) {c : Cell} (hk : KeepsClasses h (h.put a c)) :
    Since T did h0 (h.put a c) := by
  refine ⟨?_, fun b hb => ?_, hF.protos.keep hk rfl⟩
  · show _ ≤ (h.cells.set a c).length
    rw [List.length_set]
    exact hF.len
  · rw [put_get_other (Nat.ne_of_lt (Nat.lt_of_lt_of_le hb ha))]
    exact hF.same b hb

theorem Since.after {h0 h h' : Heap} (hF : Since T did h0 h) (hF' : Since T did h h') : Since T did h0 h' :=
  ⟨Nat.le_trans hF.len hF'.len, fun b hb => by rw [hF'.same b (Nat.lt_of_lt_of_le hb hF.len)]; exact hF.same b hb, hF'.protos⟩

theorem set_names {α : Type} {d : Dict α} {L : List Field} {f : Field} (hf : f ∈ L) (v : α) (h : d.map (·.1) = L.map (·.name)) :
    (Dict.set d f.name v).map (·.1) = L.map (·.name) := by
  rw [← h]
  exact Dict.keys_set_mem d f.name v (show f.name ∈ d.map (·.1) by rw [h]; exact List.mem_map.2 ⟨f, hf, rfl⟩)

include hT in
/-- Assigning to a field that is not a list. -/
theorem set_follows {N : Nat} {h0 h : Heap} {a : Addr} {c : ClsId} {P : Field → Prop} {i : Val} {f : Field} {v : HVal} {w : Val}
    (hF : Since T did h0 h) (hm : Mid T h h0.cells.length a c P i) (hf : f ∈ (T c).fields) (hk : f.kind ≠ .list)
    (hs : Shows h (a + 1) v w) :
    Follows (Since T did h0) (setAttr T (newInst T N) i f.name w) (setH T N (.ref a) f.name v h)
      fun i' _ h' => Mid T h' h0.cells.length a c (fun g => P g ∧ g ≠ f) i' := by
  obtain ⟨fs, vs, x, rfl, h2, h3, h4, h5, h6⟩ := hm
  unfold setAttr setH
  simp only [h2, findField_mem (hT c) hf]
  show Follows _ (f.accept T (newInst T N) w >>= fun w => Except.ok (Val.inst c (Dict.set vs f.name w) x))
    (Act.andThen (f.acceptH T N h v, h) fun w h => (Except.ok HVal.none, h.put a (.inst c (Dict.set fs f.name w)))) _
  refine (acceptH_follows hF hk hs).bind ?_
  rintro w' v' h' hF' ⟨rfl, hs'⟩
  have hkeep : KeepsClasses h' (h'.put a (.inst c (Dict.set fs f.name v'))) := keeps_put_inst h2
  have hcells : ∀ b, a + 1 ≤ b → ∀ c', h'.cells[b]? = some c' → (h'.put a (.inst c (Dict.set fs f.name v'))).cells[b]? = some c' := by
    intro b hb c' hc
    rw [put_get_other (Nat.ne_of_gt hb)]
    exact hc
  refine ⟨_, rfl, hF'.put h3 hkeep, _, _, x, rfl, put_get_self h2, h3, set_names hf _ h4, set_names hf _ h5, fun g hg hp => ?_⟩
  by_cases hgf : g = f
  · subst hgf
    rw [get_set_self, get_set_self]
    unfold Holds
    rw [if_neg hk]
    exact ⟨_, _, rfl, rfl, hs'.mono (Nat.le_refl _) hcells⟩
  · have hne : g.name ≠ f.name := fun he => hgf (name_inj (hT c) hg hf he)
    rw [get_set_other _ _ _ _ hne, get_set_other _ _ _ _ hne]
    have := h6 g hg fun hpg => hp ⟨hpg, hgf⟩
    unfold Holds at this ⊢
    split
    · next hkg =>
      rw [if_pos hkg] at this
      obtain ⟨l, items, ws, e1, e2, e3, e4, e5, e6⟩ := this
      refine ⟨l, items, ws, e1, e2, e3, e4, ?_, e6.mono (Nat.le_refl _) hcells⟩
      rw [put_get_other (Nat.ne_of_lt e4)]
      exact e5
    · next hkg =>
      rw [if_neg hkg] at this
      obtain ⟨v2, w2, e1, e2, e3⟩ := this
      exact ⟨v2, w2, e1, e2, e3.mono (Nat.le_refl _) hcells⟩

include hT in
/-- Appending to the list of a field. -/
theorem append_follows {N : Nat} {h0 h : Heap} {a : Addr} {c : ClsId} {P : Field → Prop} {i : Val} {f : Field} {v : HVal} {w : Val}
    (hF : Since T did h0 h) (hm : Mid T h h0.cells.length a c P i) (hf : f ∈ (T c).fields) (hk : f.kind = .list) (hP : ¬ P f)
    (hs : Shows h (a + 1) v w) :
    Follows (Since T did h0) (appendAttr T (newInst T N) f i w) (appendAttrH T N (.ref a) f.name v h)
      fun i' _ h' => Mid T h' h0.cells.length a c P i' := by
  obtain ⟨fs, vs, x, rfl, h2, h3, h4, h5, h6⟩ := hm
  have hh := h6 f hf hP
  unfold Holds at hh
  rw [if_pos hk] at hh
  obtain ⟨l, items, ws, e1, e2, e3, e4, e5, e6⟩ := hh
  unfold appendAttr appendAttrH appendH typedAppend
  simp only [h2, e1, e2, e5]
  have hassoc : ∀ (r : Except Exn Unit) (b : Except Exn Val) (m : Except Exn Unit) (k : Val → Val),
      ((r >>= fun _ => b >>= fun w => m >>= fun _ => Except.ok (ws ++ [w])) >>= fun is => Except.ok (Val.inst c (Dict.set vs f.name (.list true is)) x)) =
      (r >>= fun _ => b >>= fun w => m >>= fun _ => Except.ok (Val.inst c (Dict.set vs f.name (.list true (ws ++ [w]))) x)) := by
    intro r b m k
    cases r with
    | error e => rfl
    | ok u =>
      cases b with
      | error e => rfl
      | ok w => cases m <;> rfl
  refine Eq.mpr (congrArg (fun z => Follows _ z _ _) (hassoc _ _ _ id)) ?_
  refine (Follows.pure hF).bind ?_
  rintro _ _ h' hF' ⟨rfl, rfl⟩
  have hit : Follows (Since T did h0) (f.acceptItem T w) (f.acceptItemH T h' v, h') fun w' v' h'' => h'' = h' ∧ Shows h' (a + 1) v' w' := by
    rcases acceptItemH_follows (T := T) (f := f) hs with ⟨e, q1, q2⟩ | ⟨w', v', q1, q2, q3⟩
    · rw [q1, q2]; exact ⟨rfl, hF'⟩
    · rw [q1, q2]; exact ⟨_, rfl, hF', rfl, q3⟩
  refine hit.bind ?_
  rintro w' v' h'' _ ⟨rfl, hs'⟩
  rw [e6.1]
  refine (Follows.pure hF').bind ?_
  rintro _ _ h3' _ ⟨rfl, rfl⟩
  have hcells : ∀ b, a + 1 ≤ b → ∀ c', h3'.cells[b]? = some c' →
      (h3'.put l (.list (some f) (items ++ [v']))).cells[b]? = some c' := by
    intro b hb c' hc
    rw [put_get_other (Nat.ne_of_gt (Nat.lt_trans e4 hb))]
    exact hc
  refine ⟨_, rfl, hF'.put e3 (keeps_put_list e5), fs, _, x, rfl, ?_, h3, h4, set_names hf _ h5, fun g hg hp => ?_⟩
  · rw [put_get_other (Nat.ne_of_gt e4)]
    exact h2
  · by_cases hgf : g = f
    · subst hgf
      rw [get_set_self]
      unfold Holds
      rw [if_pos hk]
      exact ⟨l, _, _, e1, rfl, e3, e4, put_get_self e5, (e6.snoc hs').mono (Nat.le_refl _) hcells⟩
    · have hne : g.name ≠ f.name := fun he => hgf (name_inj (hT c) hg hf he)
      rw [get_set_other _ _ _ _ hne]
      have := h6 g hg hp
      unfold Holds at this ⊢
      split
      · next hkg =>
        rw [if_pos hkg] at this
        obtain ⟨l', items', ws', d1, d2, d3, d4, d5, d6⟩ := this
        refine ⟨l', items', ws', d1, d2, d3, d4, ?_, d6.mono (Nat.le_refl _) hcells⟩
        rw [put_get_other]
        · exact d5
        · rintro rfl
          rw [e5] at d5
          injection d5 with d5
          injection d5 with d5
          injection d5 with d5
          exact hgf d5.symm
      · next hkg =>
        rw [if_neg hkg] at this
        obtain ⟨v2, w2, d1, d2, d3⟩ := this
        exact ⟨v2, w2, d1, d2, d3.mono (Nat.le_refl _) hcells⟩

/-! ### Parsing -/

/-- What parsing as an instance of a class has to do with the tree. -/
def ParseFollows (T : Table) (did : ClsId → Str → Nat) (pc : ParseCls) (pcH : ParseH) : Prop := ∀ c x h, Protos T did h →
  Follows (Since T did h) (pc c x) (pcH c x h) fun v o h' => Shows h' h.cells.length o v

/-- A value is parsed: it is made of new objects, and the instance stays as it is. -/
theorem value_follows {pc : ParseCls} {pcH : ParseH} (ih : ParseFollows T did pc pcH) {h0 h : Heap} {a : Addr} {c : ClsId} {P : Field → Prop}
    {i : Val} (hF : Since T did h0 h) (hm : Mid T h h0.cells.length a c P i) (t : FType) (x : Xml) :
    Follows (Since T did h0) (parseType pc t x) (parseTypeH pcH t x h) fun w v h' => Mid T h' h0.cells.length a c P i ∧ Shows h' (a + 1) v w := by
  unfold parseType parseTypeH
  cases t with
  | simple s =>
    cases x with
    | elem q at' text k =>
      simp only
      cases s.pythonvalue (textAtom text) with
      | error e => exact ⟨rfl, hF⟩
      | ok b => exact ⟨_, rfl, hF, hm, .atom b⟩
    | comment => exact ⟨rfl, hF⟩
    | pi => exact ⟨rfl, hF⟩
  | any => exact ⟨rfl, hF⟩
  | complex d =>
    refine Follows.imp (ih d x h hF.protos) (fun h' hF' => hF.after hF') fun w v h' hF' hs => ⟨hm.frame fun b hb => hF'.same b hb, ?_⟩
    exact hs.mono (Nat.succ_le_of_lt hm.lt) fun _ _ _ hc => hc

include hT in
theorem element_follows {pc : ParseCls} {pcH : ParseH} (ih : ParseFollows T did pc pcH) {N : Nat} {h0 h : Heap} {a : Addr} {c : ClsId}
    {P : Field → Prop} {i : Val} {f : Field} (hF : Since T did h0 h) (hm : Mid T h h0.cells.length a c P i) (hf : f ∈ (T c).fields)
    (hk : f.kind ≠ .list) (x : Xml) :
    Follows (Since T did h0) (parseElement T (newInst T N) pc f i x) (parseElementH T N pcH f (.ref a) x h)
      fun i' _ h' => Mid T h' h0.cells.length a c (fun g => P g ∧ g ≠ f) i' := by
  unfold parseElement parseElementH
  refine (Follows.pure hF).bind ?_
  rintro _ _ h' hF ⟨rfl, rfl⟩
  have hv : Follows (Since T did h0) (if x.attr qNil = some py"true" then .ok .nil else parseType pc f.type x)
      (if x.attr qNil = some py"true" then (.ok .nil, h') else parseTypeH pcH f.type x h') fun w v h'' =>
        Mid T h'' h0.cells.length a c P i ∧ Shows h'' (a + 1) v w := by
    split
    · exact ⟨_, rfl, hF, hm, .nil⟩
    · exact value_follows ih hF hm f.type x
  refine hv.bind ?_
  rintro w v h'' hF' ⟨hm', hs⟩
  exact set_follows hT hF' hm' hf hk hs

include hT in
theorem item_follows {pc : ParseCls} {pcH : ParseH} (ih : ParseFollows T did pc pcH) {N : Nat} {h0 h : Heap} {a : Addr} {c : ClsId}
    {P : Field → Prop} {i : Val} {f : Field} (hF : Since T did h0 h) (hm : Mid T h h0.cells.length a c P i) (hf : f ∈ (T c).fields)
    (hk : f.kind = .list) (hP : ¬ P f) (x : Xml) :
    Follows (Since T did h0) (parseItem T (newInst T N) pc f i x) (parseItemH T N pcH f (.ref a) x h)
      fun i' _ h' => Mid T h' h0.cells.length a c P i' := by
  unfold parseItem parseItemH
  refine (Follows.pure hF).bind ?_
  rintro _ _ h' hF ⟨rfl, rfl⟩
  have hv : Follows (Since T did h0) (if x.attr qNil ≠ none ∧ x.attr qNil ≠ some [] then .ok .nil else parseType pc f.type x)
      (if x.attr qNil ≠ none ∧ x.attr qNil ≠ some [] then (.ok .nil, h') else parseTypeH pcH f.type x h') fun w v h'' =>
        Mid T h'' h0.cells.length a c P i ∧ Shows h'' (a + 1) v w := by
    split
    · exact ⟨_, rfl, hF, hm, .nil⟩
    · exact value_follows ih hF hm f.type x
  refine hv.bind ?_
  rintro w v h'' hF' ⟨hm', hs⟩
  exact append_follows hT hF' hm' hf hk hP hs

include hT in
theorem one_follows {pc : ParseCls} {pcH : ParseH} (ih : ParseFollows T did pc pcH) {N : Nat} {h0 h : Heap} {a : Addr} {c : ClsId}
    {P : Field → Prop} {i : Val} {f : Field} (hF : Since T did h0 h) (hm : Mid T h h0.cells.length a c P i) (hf : f ∈ (T c).fields)
    (hP : ¬ P f) (x : Xml) :
    Follows (Since T did h0) (parseOne T (newInst T N) pc f i x) (parseOneH T N pcH f (.ref a) x h)
      fun i' _ h' => Mid T h' h0.cells.length a c P i' := by
  unfold parseOne parseOneH
  split
  · next hk => exact item_follows hT ih hF hm hf hk hP x
  · next hk => exact Follows.imp (element_follows hT ih hF hm hf hk x) (fun _ h => h) fun _ _ _ _ h => h.weaken fun _ _ hp => hp.1

include hT in
theorem attr_follows {N : Nat} {h0 h : Heap} {a : Addr} {c : ClsId} {P : Field → Prop} {i : Val} {f : Field} (hF : Since T did h0 h)
    (hm : Mid T h h0.cells.length a c P i) (hf : f ∈ (T c).fields) (hk : f.kind ≠ .list) (x : Xml) :
    Follows (Since T did h0) (parseAttr T (newInst T N) f i x) (parseAttrH T N (.ref a) x f h)
      fun i' _ h' => Mid T h' h0.cells.length a c P i' := by
  unfold parseAttr parseAttrH
  refine (Follows.pure hF).bind ?_
  rintro _ _ h' hF ⟨rfl, rfl⟩
  refine (Follows.pure hF).bind ?_
  rintro b _ h'' hF ⟨rfl, rfl⟩
  exact Follows.imp (set_follows hT hF hm hf hk (.atom b)) (fun _ h => h) fun _ _ _ _ h => h.weaken fun _ _ hp => hp.1

include hT in
theorem seq_follows {pc : ParseCls} {pcH : ParseH} (ih : ParseFollows T did pc pcH) {N : Nat} {h0 h : Heap} {a : Addr} {c : ClsId}
    {P : Field → Prop} {i : Val} {f : Field} (hF : Since T did h0 h) (hm : Mid T h h0.cells.length a c P i) (hf : f ∈ (T c).fields)
    (hP : ¬ P f) (x : Xml) :
    Follows (Since T did h0) (parseSeq T (newInst T N) pc x i f) (parseSeqH T N pcH (.ref a) x f h)
      fun i' _ h' => Mid T h' h0.cells.length a c P i' := by
  unfold parseSeq parseSeqH
  refine (Follows.pure hF).bind ?_
  rintro subs _ h' hF ⟨rfl, rfl⟩
  exact Follows.fold (R := fun i h => Mid T h h0.cells.length a c P i) subs i h' hF hm fun x _ i h hF hm =>
    one_follows hT ih hF hm hf hP x

include hT in
theorem choice_follows {pc : ParseCls} {pcH : ParseH} (ih : ParseFollows T did pc pcH) {N : Nat} {h0 h : Heap} {a : Addr} {c : ClsId}
    {P : Field → Prop} {i : Val} (hF : Since T did h0 h) (hm : Mid T h h0.cells.length a c P i) (x : Xml) :
    ∀ (L : List Field), (∀ f ∈ L, f ∈ (T c).fields ∧ ¬ P f) →
    Follows (Since T did h0) (parseChoice T (newInst T N) pc x i L) (parseChoiceH T N pcH (.ref a) x L h)
      fun i' _ h' => Mid T h' h0.cells.length a c P i'
  | [], _ => ⟨_, rfl, hF, hm⟩
  | f :: L, hL => by
    have hrec := choice_follows ih (N := N) hF hm x L fun g hg => hL g (List.mem_cons_of_mem _ hg)
    unfold parseChoice parseChoiceH
    cases x with
    | elem q at' text k =>
      simp only
      split
      · exact one_follows hT ih hF hm (hL f List.mem_cons_self).1 (hL f List.mem_cons_self).2 _
      · exact hrec
    | comment => exact hrec
    | pi => exact ⟨rfl, hF⟩

include hT in
theorem groups_follow {pc : ParseCls} {pcH : ParseH} (ih : ParseFollows T did pc pcH) {N : Nat} {h0 : Heap} {a : Addr} {c : ClsId}
    (x : Xml) : ∀ (L : List Field) (i : Val) (h : Heap), Since T did h0 h → (∀ f ∈ L, f ∈ (T c).fields ∧ f.kind ≠ .list) →
      Mid T h h0.cells.length a c (fun f => f ∈ L) i →
    Follows (Since T did h0) (foldE (fun i f => parseElement T (newInst T N) pc f i x) i L)
      (forH (fun f => parseElementH T N pcH f (.ref a) x) L h) fun i' _ h' => Mid T h' h0.cells.length a c (fun _ => False) i'
  | [], i, h, hF, _, hm => ⟨_, rfl, hF, hm.weaken fun _ _ hp => absurd hp List.not_mem_nil⟩
  | f :: L, i, h, hF, hL, hm => by
    refine (element_follows hT ih hF hm (hL f List.mem_cons_self).1 (hL f List.mem_cons_self).2 x).bind ?_
    intro i' _ h' hF' hm'
    refine groups_follow ih x L i' h' hF' (fun g hg => hL g (List.mem_cons_of_mem _ hg)) (hm'.weaken fun g _ hp => ?_)
    rcases List.mem_cons.1 hp.1 with h | h
    · exact absurd h hp.2
    · exact h

include hT hd hdef in
theorem parse_follows {N : Nat} : ∀ n, ParseFollows T did (parseCls T N n) (parseClsH T did N n) := by
  intro n
  induction n with
  | zero => intro c x h hp; exact ⟨rfl, Nat.le_refl _, fun _ _ => rfl, hp⟩
  | succ n ih =>
    intro c x h hp
    have hnew := new_follows hT hd hdef N c h hp
    have hnew' : Follows (Since T did h) (newInst T N c) (newH T did N c h) fun v o h' =>
        ∃ a, o = .ref a ∧ Mid T h' h.cells.length a c (fun f => f.kind.isGroup = true) (withXml v x) := by
      refine Follows.imp hnew (fun h' hF => frame_prefix hF.1 hF.2) ?_
      rintro v o h' _ ⟨a, fs, vs, rfl, rfl, hc, ha, hlen, hn1, hn2, hst⟩
      refine ⟨a, rfl, fs, vs, some x, rfl, hc, ha, hn1, hn2, fun f hf hP => ?_⟩
      have := hst f hf
      unfold Starts at this
      unfold Holds
      split
      · next hk =>
        rw [if_pos hk] at this
        obtain ⟨l, e1, e2, e3, e4⟩ := this
        refine ⟨l, [], [], e1, e2, e3, ?_, e4, rfl, fun i v w hv => by simp at hv⟩
        have h1 : l < a + 1 := by rw [hlen]; exact get_lt e4
        rcases Nat.lt_or_eq_of_le (Nat.le_of_lt_succ h1) with h2 | h2
        · exact h2
        · rw [h2, hc] at e4; cases e4
      · next hk =>
        rw [if_neg hk] at this
        obtain ⟨v', w', e1, e2, e3⟩ := this (by simpa using hP)
        exact ⟨v', w', e1, e2, by rw [hlen]; exact e3⟩
    unfold parseCls parseClsH
    refine hnew'.bind ?_
    rintro v o h1 hF1 ⟨a, rfl, hm1⟩
    have hattrs := Follows.fold (F := Since T did h) (f := fun i f => parseAttr T (newInst T N) f i x) (g := parseAttrH T N (.ref a) x)
      (R := fun i h' => Mid T h' h.cells.length a c (fun f => f.kind.isGroup = true) i) (T c).attrs (withXml v x) h1 hF1 hm1
      fun f hf i h' hF hm => attr_follows hT hF hm (List.mem_filter.1 hf).1 (by have := of_decide_eq_true (List.mem_filter.1 hf).2; rw [this]; decide) x
    refine hattrs.bind ?_
    intro i2 _ h2 hF2 hm2
    have hel : ∀ f ∈ (T c).elems, f ∈ (T c).fields ∧ ¬ f.kind.isGroup = true := by
      intro f hf
      refine ⟨(List.mem_filter.1 hf).1, ?_⟩
      have := (List.mem_filter.1 hf).2
      cases hk : f.kind <;> rw [hk] at this <;> first | decide | cases this
    have hbody : Follows (Since T did h) (if (T c).choice then parseChoice T (newInst T N) (parseCls T N n) x i2 (T c).elems
          else foldE (parseSeq T (newInst T N) (parseCls T N n) x) i2 (T c).elems)
        (if (T c).choice then parseChoiceH T N (parseClsH T did N n) (.ref a) x (T c).elems h2
          else forH (parseSeqH T N (parseClsH T did N n) (.ref a) x) (T c).elems h2)
        fun i' _ h' => Mid T h' h.cells.length a c (fun f => f.kind.isGroup = true) i' := by
      split
      · exact choice_follows hT ih hF2 hm2 x _ hel
      · exact Follows.fold (R := fun i h' => Mid T h' h.cells.length a c (fun f => f.kind.isGroup = true) i) _ i2 h2 hF2 hm2
          fun f hf i h' hF hm => seq_follows hT ih hF hm (hel f hf).1 (hel f hf).2 x
    refine hbody.bind ?_
    intro i3 _ h3 hF3 hm3
    have hgr := groups_follow hT ih (N := N) x (T c).groups i3 h3 hF3
      (fun f hf => ⟨(List.mem_filter.1 hf).1, by
        have := (List.mem_filter.1 hf).2
        cases hk : f.kind <;> rw [hk] at this <;> first | decide | cases this⟩)
      (hm3.weaken fun f hf hp => List.mem_filter.2 ⟨hf, hp⟩)
    have hbind : ∀ r : Except Exn Val, r = (r >>= fun i => .ok i) := by intro r; cases r <;> rfl
    rw [hbind (foldE _ i3 _)]
    refine hgr.bind ?_
    rintro i4 _ h4 hF4 ⟨fs, vs, x', rfl, hc, ha, hn1, hn2, hall⟩
    refine ⟨_, rfl, hF4, .inst ha hc (by rw [hn1, hn2]) fun n v w hv hw => ?_⟩
    have hmem : n ∈ (T c).fields.map (·.name) := by
      rw [← hn1]
      refine Classical.byContradiction fun hno => ?_
      rw [(Dict.get_none_iff fs n).2 hno] at hv
      cases hv
    obtain ⟨f, hf, rfl⟩ := List.mem_map.1 hmem
    have := hall f hf id
    unfold Holds at this
    split at this
    · obtain ⟨l, items, ws, e1, e2, e3, e4, e5, e6⟩ := this
      rw [hv] at e1
      rw [hw] at e2
      injection e1 with e1
      injection e2 with e2
      subst e1 e2
      have e7 := e6.mono (lo' := h.cells.length) (Nat.le_succ_of_le ha) fun _ _ _ hc => hc
      exact .list (o := some f) e3 e5 e7.1 e7.2
    · obtain ⟨v', w', e1, e2, e3⟩ := this
      rw [hv] at e1
      rw [hw] at e2
      injection e1 with e1
      injection e2 with e2
      subst e1 e2
      exact e3.mono (Nat.le_succ_of_le ha) fun _ _ _ hc => hc

end

end Soapfish
