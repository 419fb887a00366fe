import Verif.Sim
import Verif.Spec.Documents
import Verif.Examples
/-
Reading documents: C27, C28, C29, C31, C32, C33.
-/
namespace Soapfish

/-! ### C27 -/

theorem renamed_matches {f : Field} {q q' : QName} (h : q.loc = q'.loc) : f.matchesTag q' = f.matchesTag q := by
  simp [Field.matchesTag, h]

theorem renamed_attr {x y : Xml} (h : Renamed x y) (q : QName) : x.attr q = y.attr q := by
  cases h <;> rfl

theorem renamed_findSub {f : Field} {k k' : List Xml} (h : All2 Renamed k k') :
    ∀ l, findSub f k = .ok l → ∃ l', findSub f k' = .ok l' ∧ All2 Renamed l l' := by
  induction h with
  | nil => intro l hl; injection hl with hl; subst hl; exact ⟨[], rfl, .nil⟩
  | cons hr _ ih =>
    intro l hl
    cases hr with
    | comment => exact ih l hl
    | pi => cases hl
    | elem hq hk =>
      simp only [findSub, bind_eq_ok] at hl ⊢
      obtain ⟨r, hr, hl⟩ := hl
      obtain ⟨r', hr', hrr⟩ := ih r hr
      refine ⟨_, ⟨r', hr', rfl⟩, ?_⟩
      injection hl with hl; subst hl
      rw [renamed_matches hq]
      split
      · exact .cons (.elem hq hk) hrr
      · exact hrr

theorem renamed_sub {f : Field} {x y : Xml} (h : Renamed x y) : SubSim (fun _ => Renamed) f x y := by
  refine ⟨renamed_attr h _, ?_⟩
  cases f.type with
  | simple s => cases h <;> rfl
  | complex c => exact h
  | any => trivial

theorem renamed_isSim (T : Table) : IsSim T (fun _ => Renamed) where
  attrs := fun c x y h f _ => renamed_attr h _
  subs := by
    intro c x y h _ f _ l hl
    cases h with
    | comment => injection hl with hl; subst hl; exact ⟨[], rfl, .nil⟩
    | pi => injection hl with hl; subst hl; exact ⟨[], rfl, .nil⟩
    | elem hq hk =>
      obtain ⟨l', hl', hll⟩ := renamed_findSub hk l hl
      exact ⟨l', hl', hll.imp fun _ _ h => renamed_sub h⟩
  groups := fun c x y h f _ => renamed_sub h
  choice := by
    intro c x y h _
    cases h with
    | comment => exact .inl ⟨rfl, rfl⟩
    | pi => exact .inr (.inl rfl)
    | elem hq hk =>
      exact .inr (.inr ⟨_, _, _, _, _, _, _, _, rfl, rfl, hq, fun f _ _ => renamed_sub (.elem hq hk)⟩)

theorem renamed_symm {x y : Xml} (h : Renamed x y) : Renamed y x := by
  refine Renamed.rec (motive_1 := fun x y _ => Renamed y x) (motive_2 := fun k k' _ => All2 Renamed k' k)
    ?_ .comment .pi .nil ?_ h
  · intro q q' a t k k' hq _ ih; exact .elem hq.symm ih
  · intro a b as bs _ _ h1 h2; exact .cons h1 h2

/-- **C27.** Changing the namespaces of any elements of a document changes neither whether it can be read nor the
field values read. -/
theorem C27_namespaces (T : Table) (N n : Nat) (c : ClsId) (x y : Xml) (h : Renamed x y) :
    (∀ v, parseCls T N n c x = .ok v → ∃ w, parseCls T N n c y = .ok w ∧ v.SameFields w) ∧
    (∀ w, parseCls T N n c y = .ok w → ∃ v, parseCls T N n c x = .ok v ∧ v.SameFields w) := by
  constructor
  · exact fun v hv => parse_sim (renamed_isSim T) N n c x y v h hv
  · intro w hw
    obtain ⟨v, hv, he⟩ := parse_sim (renamed_isSim T) N n c y x w (renamed_symm h) hw
    exact ⟨v, hv, he.symm⟩

/-- The address of the example document in another namespace: read with the same values. -/
example : Renamed (Ex.leaf py"city" py"X") (.elem ⟨some py"urn:x", py"city"⟩ [] (some py"X") []) := .elem rfl .nil

example : ∃ v w, parseCls Ex.table 5 5 1 (.elem ⟨none, py"a"⟩ [] none [Ex.leaf py"city" py"X"]) = .ok v ∧
    parseCls Ex.table 5 5 1 (.elem ⟨none, py"a"⟩ [] none [.elem ⟨some py"urn:x", py"city"⟩ [] (some py"X") []]) = .ok w ∧
    v.attr py"city" = some (.atom (.str py"X")) ∧ w.attr py"city" = some (.atom (.str py"X")) := ⟨_, _, rfl, rfl, rfl, rfl⟩

/-! ### C28, C29: irrelevant children and order -/

theorem claims_iff {f : Field} {q : QName} {a t k} : f.Claims (.elem q a t k) ↔ f.matchesTag q = true := by
  simp only [Field.Claims, Field.matchesTag, Bool.or_eq_true, decide_eq_true_eq]
  constructor
  · rintro ⟨q', a', t', k', h, h'⟩
    injection h with h1 h2 h3 h4
    subst h1
    rcases h' with h' | h'
    · exact .inl h'
    · exact .inr h'.symm
  · rintro (h | h)
    · exact ⟨q, a, t, k, rfl, .inl h⟩
    · exact ⟨q, a, t, k, rfl, .inr h.symm⟩

theorem claims_comment {f : Field} : ¬ f.Claims .comment := by rintro ⟨_, _, _, _, h, _⟩; cases h
theorem claims_pi {f : Field} : ¬ f.Claims .pi := by rintro ⟨_, _, _, _, h, _⟩; cases h

theorem findSub_skip {f : Field} {u : Xml} {ks : List Xml} (h : ¬ f.Claims u) (hp : u ≠ .pi) :
    findSub f (u :: ks) = findSub f ks := by
  cases u with
  | comment => rfl
  | pi => exact absurd rfl hp
  | elem q a t k =>
    have : f.matchesTag q ≠ true := fun hm => h (claims_iff.2 hm)
    simp only [findSub, if_neg this]
    cases findSub f ks <;> rfl

theorem findSub_take {f : Field} {q : QName} {a t k} {ks : List Xml} (h : f.Claims (.elem q a t k)) :
    findSub f (.elem q a t k :: ks) = (findSub f ks).map (.elem q a t k :: ·) := by
  simp only [findSub, if_pos (claims_iff.1 h)]
  cases findSub f ks <;> rfl

/-- Documents that differ by irrelevant changes. -/
inductive ShufDoc (T : Table) : ClsId → Xml → Xml → Prop where
  | elem {c q q' a t k k'} : q.loc = q'.loc → Shuffled T c k k' → ShufDoc T c (.elem q a t k) (.elem q' a t k')
  | comment {c} : ShufDoc T c .comment .comment
  | pi {c} : ShufDoc T c .pi .pi

theorem Shuffled.mono {T : Table} {c : ClsId} {k k' : List Xml} (h : Shuffled T c k k') :
    ∀ {c'}, (∀ f, Owns T c' f → Owns T c f) → Shuffled T c' k k' := by
  induction h with
  | nil => intro c' _; exact .nil
  | cons hq hs _ _ ih2 =>
    intro c' hc
    exact .cons hq (fun f c'' ho hcl ht => hs f c'' (hc f ho) hcl ht) (ih2 hc)
  | pi _ ih => intro c' hc; exact .pi (ih hc)
  | add h hp _ ih => intro c' hc; exact .add (fun f ho => h f (hc f ho)) hp (ih hc)
  | remove h hp _ ih => intro c' hc; exact .remove (fun f ho => h f (hc f ho)) hp (ih hc)
  | swap h => intro c' hc; exact .swap (fun f ho => h f (hc f ho))
  | trans _ _ ih1 ih2 => intro c' hc; exact .trans (ih1 hc) (ih2 hc)

theorem Shuffled.refl (T : Table) (k : List Xml) : ∀ c, Shuffled T c k k := by
  match k with
  | [] => exact fun c => .nil
  | .comment :: ks =>
    exact fun c => .remove (fun f _ => claims_comment) (by simp)
      (.add (fun f _ => claims_comment) (by simp) (Shuffled.refl T ks c))
  | .pi :: ks => exact fun c => .pi (Shuffled.refl T ks c)
  | .elem q a t k' :: ks =>
    exact fun c => .cons rfl (fun _ c' _ _ _ => Shuffled.refl T k' c') (Shuffled.refl T ks c)

theorem Shuffled.symm {T : Table} {c : ClsId} {k k' : List Xml} (h : Shuffled T c k k') : Shuffled T c k' k := by
  induction h with
  | nil => exact .nil
  | cons hq hs _ ih1 ih2 =>
    refine .cons hq.symm (fun f c' ho hcl ht => ih1 f c' ho ?_ ht) ih2
    rw [claims_iff] at hcl ⊢
    rw [← renamed_matches hq]; exact hcl
  | pi _ ih => exact .pi ih
  | add h hp _ ih => exact .remove h hp ih
  | remove h hp _ ih => exact .add h hp ih
  | swap h => exact .swap (fun f ho hc => h f ho ⟨hc.2, hc.1⟩)
  | trans _ _ ih1 ih2 => exact .trans ih2 ih1

theorem shufDoc_sub {T : Table} {c : ClsId} {f : Field} {q q' : QName} {a : List (QName × Str)} {t : Option Str}
    {k k' : List Xml} (hq : q.loc = q'.loc)
    (hs : ∀ f c', Owns T c f → f.Claims (.elem q a t k) → f.type = .complex c' → Shuffled T c' k k')
    (ho : Owns T c f) (hm : f.Claims (.elem q a t k)) :
    SubSim (ShufDoc T) f (.elem q a t k) (.elem q' a t k') := by
  refine ⟨rfl, ?_⟩
  cases ht : f.type with
  | simple s => rfl
  | complex c' => exact .elem hq (hs f c' ho hm ht)
  | any => trivial

theorem ShufDoc.refl (T : Table) (c : ClsId) (x : Xml) : ShufDoc T c x x := by
  cases x with
  | comment => exact .comment
  | pi => exact .pi
  | elem q a t k => exact .elem rfl (.refl T k c)

theorem ShufDoc.trans {T : Table} {c : ClsId} {x y z : Xml} (h : ShufDoc T c x y) (h' : ShufDoc T c y z) :
    ShufDoc T c x z := by
  cases h with
  | comment => exact h'
  | pi => exact h'
  | elem hq hk =>
    cases h' with
    | elem hq' hk' => exact .elem (hq.trans hq') (.trans hk hk')

theorem subSim_refl {T : Table} {f : Field} (x : Xml) : SubSim (ShufDoc T) f x x := by
  refine ⟨rfl, ?_⟩
  cases f.type with
  | simple s => rfl
  | complex c' => exact .refl T c' x
  | any => trivial

theorem subSim_trans {T : Table} {f : Field} {x y z : Xml} (h : SubSim (ShufDoc T) f x y)
    (h' : SubSim (ShufDoc T) f y z) : SubSim (ShufDoc T) f x z := by
  refine ⟨h.1.trans h'.1, ?_⟩
  have h2 := h.2
  have h2' := h'.2
  cases ht : f.type with
  | simple s => rw [ht] at h2 h2'; exact Eq.trans h2 h2'
  | complex c' => rw [ht] at h2 h2'; exact ShufDoc.trans h2 h2'
  | any => trivial

theorem findSub_pi {f : Field} {ks : List Xml} {u : Xml} : findSub f (u :: .pi :: ks) = .error .typeError := by
  cases u <;> rfl

theorem shuffled_findSub {T : Table} {c : ClsId} {k k' : List Xml} (h : Shuffled T c k k') :
    ∀ f, Owns T c f → ∀ l, findSub f k = .ok l → ∃ l', findSub f k' = .ok l' ∧ All2 (SubSim (ShufDoc T) f) l l' := by
  induction h with
  | nil => intro f _ l hl; injection hl with hl; subst hl; exact ⟨[], rfl, .nil⟩
  | @cons c q q' a t k k' ks ks' hq hs _ _ ih =>
    intro f ho l hl
    by_cases hm : f.Claims (.elem q a t k)
    · have hm' : f.Claims (.elem q' a t k') := by
        rw [claims_iff] at hm ⊢; rw [renamed_matches hq]; exact hm
      rw [findSub_take hm, map_eq_ok] at hl
      obtain ⟨r, hr, rfl⟩ := hl
      obtain ⟨r', hr', hrr⟩ := ih f ho r hr
      exact ⟨_, by rw [findSub_take hm', hr']; rfl, .cons (shufDoc_sub hq hs ho hm) hrr⟩
    · have hm' : ¬ f.Claims (.elem q' a t k') := by
        rw [claims_iff] at hm ⊢; rw [renamed_matches hq]; exact hm
      rw [findSub_skip hm (by simp)] at hl
      rw [findSub_skip hm' (by simp)]
      exact ih f ho l hl
  | pi _ _ => intro f _ l hl; cases hl
  | add h hp _ ih => intro f ho l hl; rw [findSub_skip (h f ho) hp]; exact ih f ho l hl
  | remove h hp _ ih => intro f ho l hl; rw [findSub_skip (h f ho) hp] at hl; exact ih f ho l hl
  | @swap c u w ks h =>
    intro f ho l hl
    refine ⟨l, ?_, all2_self fun x _ => subSim_refl x⟩
    by_cases hu : u = .pi
    · subst hu; cases hl
    by_cases hw : w = .pi
    · subst hw; rw [findSub_pi] at hl; cases hl
    by_cases hcu : f.Claims u
    · have hcw : ¬ f.Claims w := fun hcw => h f ho ⟨hcu, hcw⟩
      rw [findSub_skip hcw hw]
      obtain ⟨q, a, t, k, rfl, _⟩ := id hcu
      rw [findSub_take hcu, findSub_skip hcw hw] at hl
      rw [findSub_take hcu]; exact hl
    · rw [findSub_skip hcu hu] at hl
      by_cases hcw : f.Claims w
      · obtain ⟨q, a, t, k, rfl, _⟩ := id hcw
        rw [findSub_take hcw] at hl
        rw [findSub_take hcw, findSub_skip hcu hu]; exact hl
      · rw [findSub_skip hcw hw] at hl
        rw [findSub_skip hcw hw, findSub_skip hcu hu]; exact hl
  | trans _ _ ih1 ih2 =>
    intro f ho l hl
    obtain ⟨l1, h1, a1⟩ := ih1 f ho l hl
    obtain ⟨l2, h2, a2⟩ := ih2 f ho l1 h1
    refine ⟨l2, h2, (a1.comp a2).imp ?_⟩
    rintro x z ⟨y, hxy, hyz⟩
    exact subSim_trans hxy hyz

theorem ShufDoc.attr {T : Table} {c : ClsId} {x y : Xml} (h : ShufDoc T c x y) (q : QName) : x.attr q = y.attr q := by
  cases h <;> rfl

theorem ShufDoc.sub {T : Table} {c : ClsId} {x y : Xml} {f : Field} (h : ShufDoc T c x y)
    (hm : ∀ c', f.type = .complex c' → ∀ g, Owns T c' g → Owns T c g) : SubSim (ShufDoc T) f x y := by
  refine ⟨h.attr _, ?_⟩
  cases ht : f.type with
  | simple s => cases h <;> rfl
  | any => trivial
  | complex c' =>
    cases h with
    | comment => exact .comment
    | pi => exact .pi
    | elem hq hk => exact .elem hq (hk.mono (hm c' ht))

theorem shufDoc_isSim (T : Table) : IsSim T (ShufDoc T) where
  attrs := fun c x y h f _ => h.attr _
  subs := by
    intro c x y h hc f hf l hl
    cases h with
    | comment => injection hl with hl; subst hl; exact ⟨[], rfl, .nil⟩
    | pi => injection hl with hl; subst hl; exact ⟨[], rfl, .nil⟩
    | elem hq hk => exact shuffled_findSub hk f (.field hc hf) l hl
  groups := fun c x y h f hf => h.sub fun c' ht g hg => .group hf ht hg
  choice := by
    intro c x y h hc
    cases id h with
    | comment => exact .inl ⟨rfl, rfl⟩
    | pi => exact .inr (.inl rfl)
    | elem hq hk =>
      exact .inr (.inr ⟨_, _, _, _, _, _, _, _, rfl, rfl, hq, fun f hf _ =>
        h.sub fun c' ht g hg => .choice hc hf ht hg⟩)

/-- **C28, C29 (order).** Adding or removing comments and elements no field claims, swapping neighbouring children of
different fields, and changing namespaces - at any depth, any number of times - changes neither whether a document can
be read nor the field values read. -/
theorem C28_C29_irrelevant_changes (T : Table) (N n : Nat) (c : ClsId) (q : QName) (a : List (QName × Str))
    (t : Option Str) (k k' : List Xml) (h : Shuffled T c k k') (v : Val)
    (hv : parseCls T N n c (.elem q a t k) = .ok v) :
    ∃ w, parseCls T N n c (.elem q a t k') = .ok w ∧ v.SameFields w :=
  parse_sim (shufDoc_isSim T) N n c _ _ v (.elem rfl h) hv

/-- **C28.** Inserting comments and unclaimed elements between the children changes nothing... -/
theorem C28_unknown_inserted (T : Table) (N n : Nat) (c : ClsId) (q : QName) (a : List (QName × Str))
    (t : Option Str) (pre post : List Xml) (u : Xml) (hp : u ≠ .pi) (hu : ∀ f, Owns T c f → ¬ f.Claims u) :
    (∀ v, parseCls T N n c (.elem q a t (pre ++ post)) = .ok v →
      ∃ w, parseCls T N n c (.elem q a t (pre ++ u :: post)) = .ok w ∧ v.SameFields w) ∧
    (∀ v, parseCls T N n c (.elem q a t (pre ++ u :: post)) = .ok v →
      ∃ w, parseCls T N n c (.elem q a t (pre ++ post)) = .ok w ∧ v.SameFields w) := by
  have hs : Shuffled T c (pre ++ post) (pre ++ u :: post) := by
    induction pre with
    | nil => exact .add hu hp (.refl T post c)
    | cons x xs ih =>
      cases x with
      | comment => exact .remove (fun f _ => claims_comment) (by simp) (.add (fun f _ => claims_comment) (by simp) ih)
      | pi => exact .pi ih
      | elem q a t k => exact .cons rfl (fun _ c' _ _ _ => .refl T k c') ih
  exact ⟨fun v => C28_C29_irrelevant_changes T N n c q a t _ _ hs v,
    fun v => C28_C29_irrelevant_changes T N n c q a t _ _ hs.symm v⟩

/-- No field of the example address claims `<zip>`, and the document with and without it reads alike. -/
example : ∀ f, Owns Ex.table 1 f → ¬ f.Claims (Ex.leaf py"zip" py"1") := by
  intro f ho hc
  cases ho with
  | field _ hf =>
    simp [Cls.elems, Ex.table, Ex.address, Kind.isField] at hf
    subst hf
    obtain ⟨q, a, t, k, h, h'⟩ := hc
    injection h with h1; subst h1
    revert h'; decide
  | group hg _ _ => simp [Cls.groups, Ex.table, Ex.address, Kind.isGroup] at hg
  | choice h _ _ _ => cases h

example : ∃ v w, parseCls Ex.table 5 5 1 (.elem ⟨none, py"a"⟩ [] none [Ex.leaf py"city" py"X"]) = .ok v ∧
    parseCls Ex.table 5 5 1 (.elem ⟨none, py"a"⟩ [] none [Ex.leaf py"zip" py"1", Ex.leaf py"city" py"X"]) = .ok w ∧
    v.SameFields w := ⟨_, _, rfl, rfl, rfl⟩

/-- ... but a processing instruction between the children makes reading fail, for every class with at least one
element field. -/
theorem C28_processing_instruction (T : Table) (N n : Nat) (c : ClsId) (q : QName) (a : List (QName × Str))
    (t : Option Str) (pre post : List Xml) (hc : (T c).choice = false) (f : Field) (hf : f ∈ (T c).fields)
    (hk : f.kind = .element ∨ f.kind = .list ∨ f.kind = .classNamed) (v : Val) :
    parseCls T N n c (.elem q a t (pre ++ .pi :: post)) ≠ .ok v := by
  intro h
  cases n with
  | zero => cases h
  | succ n =>
    have hpi : ∀ g, ∀ l, findSub g (pre ++ .pi :: post) ≠ .ok l := by
      clear h
      intro g
      induction pre with
      | nil => intro l h; cases h
      | cons x xs ih =>
        intro l h
        cases x with
        | comment => exact ih l h
        | pi => cases h
        | elem q a t k =>
          simp only [List.cons_append, findSub, bind_eq_ok] at h
          obtain ⟨r, hr, _⟩ := h
          exact ih r hr
    simp only [parseCls, bind_eq_ok, hc] at h
    obtain ⟨i0, h0, i1, h1, i2, h2, h3⟩ := h
    have hmem : f ∈ (T c).elems := by
      simp only [Cls.elems, List.mem_filter]
      refine ⟨hf, ?_⟩
      rcases hk with h | h | h <;> rw [h] <;> rfl
    cases he : (T c).elems with
    | nil => rw [he] at hmem; cases hmem
    | cons g gs =>
      rw [he] at h2
      simp only [Bool.false_eq_true, if_false, foldE, bind_eq_ok, parseSeq] at h2
      obtain ⟨s, ⟨l, hl, _⟩, _⟩ := h2
      exact hpi g l hl

/-! ### C29: repeated elements -/

theorem acceptCls_id {T : Table} {c : ClsId} {v w : Val} (h : acceptCls T c v = .ok w) : w = v := by
  unfold acceptCls at h
  split at h
  · injection h with h; exact h.symm
  · split at h
    · injection h with h; exact h.symm
    · split at h
      · injection h with h; exact h.symm
      · cases h
    · cases h

theorem parseCls_inst {T : Table} {N n : Nat} {c : ClsId} {x : Xml} {v : Val} (h : parseCls T N n c x = .ok v) :
    v.isNil = false := by
  have hset : ∀ {T nw i name w i'}, setAttr T nw i name w = .ok i' → i'.isNil = false := by
    intro T nw i name w i' h
    cases i with
    | inst c fs x =>
      simp only [setAttr, bind_eq_ok] at h
      obtain ⟨_, _, _, _, h⟩ := h
      injection h with h; subst h; rfl
    | _ => cases h
  have happ : ∀ {T nw f i w i'}, appendAttr T nw f i w = .ok i' → i'.isNil = false := by
    intro T nw f i w i' h
    cases i with
    | inst c fs x =>
      simp only [appendAttr] at h
      split at h
      · simp only [bind_eq_ok] at h
        obtain ⟨_, _, h⟩ := h
        injection h with h; subst h; rfl
      · injection h with h; subst h; rfl
      · cases h
    | _ => cases h
  have hone : ∀ {T nw pc f i x i'}, parseOne T nw pc f i x = .ok i' → i'.isNil = false := by
    intro T nw pc f i x i' h
    unfold parseOne at h
    split at h
    · simp only [parseItem, bind_eq_ok] at h
      obtain ⟨_, _, _, _, h⟩ := h
      exact happ h
    · simp only [parseElement, bind_eq_ok] at h
      obtain ⟨_, _, _, _, h⟩ := h
      exact hset h
  have hfold : ∀ {α : Type} {f : Val → α → Except Exn Val} (l : List α) (i i' : Val),
      (∀ i a i', i.isNil = false → f i a = .ok i' → i'.isNil = false) → i.isNil = false → foldE f i l = .ok i' →
      i'.isNil = false := by
    intro α f l
    induction l with
    | nil => intro i i' _ hi h; injection h with h; subst h; exact hi
    | cons a as ih =>
      intro i i' hf hi h
      simp only [foldE, bind_eq_ok] at h
      obtain ⟨s, h1, h2⟩ := h
      exact ih s i' hf (hf _ _ _ hi h1) h2
  cases n with
  | zero => cases h
  | succ n =>
    simp only [parseCls, bind_eq_ok] at h
    obtain ⟨i0, h0, i1, h1, i2, h2, h3⟩ := h
    have e0 : (withXml i0 x).isNil = false := by
      cases N with
      | zero => cases h0
      | succ N =>
        simp only [newInst, bind_eq_ok] at h0
        obtain ⟨fs, _, h0⟩ := h0
        injection h0 with h0; subst h0; rfl
    have e1 := hfold _ _ _ (by
      intro i a i' _ h
      simp only [parseAttr, bind_eq_ok] at h
      obtain ⟨_, _, _, _, h⟩ := h
      exact hset h) e0 h1
    have e2 : i2.isNil = false := by
      split at h2
      · have : ∀ (l : List Field) i2, parseChoice T (newInst T N) (parseCls T N n) x i1 l = .ok i2 → i2.isNil = false := by
          intro l
          induction l with
          | nil => intro i2 h; injection h with h; subst h; exact e1
          | cons f fs ih =>
            intro i2 h
            cases x with
            | comment => exact ih i2 h
            | pi => cases h
            | elem q a t k =>
              simp only [parseChoice] at h
              split at h
              · exact hone h
              · exact ih i2 h
        exact this _ _ h2
      · refine hfold _ _ _ ?_ e1 h2
        intro i a i' hi h
        simp only [parseSeq, bind_eq_ok] at h
        obtain ⟨_, _, h⟩ := h
        exact hfold _ _ _ (fun _ _ _ _ h => hone h) hi h
    exact hfold _ _ _ (by
      intro i a i' _ h
      simp only [parseElement, bind_eq_ok] at h
      obtain ⟨_, _, _, _, h⟩ := h
      exact hset h) e2 h3

theorem elemVal_readAs {T : Table} {N n : Nat} {f : Field} {u : Xml} {w : Val} (hk : f.kind ≠ .list)
    (h : elemVal T (newInst T N) (parseCls T N n) f u = .ok w) : ReadAs T N n f u w := by
  simp only [elemVal, bind_eq_ok] at h
  obtain ⟨_, _, v, hv, h⟩ := h
  simp only [Field.accept, if_neg hk, bind_eq_ok] at h
  obtain ⟨_, _, h⟩ := h
  split at hv
  · next hnil =>
    injection hv with hv; subst hv
    simp only [Field.acceptItem, Val.isNil, if_true] at h
    split at h
    · next hb => injection h with h; subst h; exact .nil hnil hb
    · cases h
  · next hnil =>
    cases ht : f.type with
    | any => rw [ht] at hv; cases hv
    | simple s =>
      rw [ht] at hv
      cases u with
      | elem q a t k =>
        simp only [parseType, map_eq_ok] at hv
        obtain ⟨b, hb, rfl⟩ := hv
        simp only [Field.acceptItem, Val.isNil, Bool.false_eq_true, if_false, ht, FType.accept, map_eq_ok, Val.toAtom] at h
        obtain ⟨d, hd, rfl⟩ := h
        exact .simple hnil ht hb hd
      | _ => cases hv
    | complex c =>
      rw [ht] at hv
      have hi := parseCls_inst hv
      simp only [Field.acceptItem, hi, Bool.false_eq_true, if_false, ht, FType.accept] at h
      rw [acceptCls_id h]
      exact .complex hnil ht hv

theorem itemVal_readItem {T : Table} {N n : Nat} {f : Field} {u : Xml} {cur w : Val} {is : List Val}
    (hcur : cur = .list true is) (h : itemVal T (newInst T N) (parseCls T N n) f cur u = .ok w) :
    ∃ v, ReadItem T N n f u v ∧ w = .list true (is ++ [v]) ∧
      (∀ m, f.maxOccurs = some (.int m) → (is.length + 1 : Int) ≤ m) := by
  subst hcur
  simp only [itemVal, bind_eq_ok, typedAppend] at h
  obtain ⟨_, _, v, hv, is', ⟨_, _, v', hv', _, hm, hi⟩, h⟩ := h
  injection hi with hi; subst hi
  injection h with h; subst h
  refine ⟨v', ?_, rfl, ?_⟩
  · split at hv
    · next hnil =>
      injection hv with hv; subst hv
      simp only [Field.acceptItem, Val.isNil, if_true] at hv'
      split at hv'
      · next hb =>
        injection hv' with h; subst h
        obtain ⟨h1, h2⟩ := hnil
        cases ha : u.attr qNil with
        | none => exact absurd ha h1
        | some b => exact .nil ha (by rintro rfl; exact h2 ha) hb
      · cases hv'
    · next hnil =>
      have hnil' : u.attr qNil = none ∨ u.attr qNil = some [] := by
        by_cases h1 : u.attr qNil = none
        · exact .inl h1
        · by_cases h2 : u.attr qNil = some []
          · exact .inr h2
          · exact absurd ⟨h1, h2⟩ hnil
      cases ht : f.type with
      | any => rw [ht] at hv; cases hv
      | simple s =>
        rw [ht] at hv
        cases u with
        | elem q a t k =>
          simp only [parseType, map_eq_ok] at hv
          obtain ⟨b, hb, rfl⟩ := hv
          simp only [Field.acceptItem, Val.isNil, Bool.false_eq_true, if_false, ht, FType.accept, map_eq_ok,
            Val.toAtom] at hv'
          obtain ⟨d, hd, rfl⟩ := hv'
          exact .simple hnil' ht hb hd
        | _ => cases hv
      | complex c =>
        rw [ht] at hv
        have hi := parseCls_inst hv
        simp only [Field.acceptItem, hi, Bool.false_eq_true, if_false, ht, FType.accept] at hv'
        rw [acceptCls_id hv']
        exact .complex hnil' ht hv
  · intro m hmm
    rw [hmm] at hm
    simp only [ifGiven, raiseIf_eq_ok, Bound.exceeded, decide_eq_false_iff_not] at hm
    omega

theorem foldE_items {T : Table} {N n : Nat} {f : Field} (hk : f.kind = .list) :
    ∀ (us : List Xml) (is : List Val) (w : Val),
      foldE (oneVal T (newInst T N) (parseCls T N n) f) (.list true is) us = .ok w →
      ∃ vs, w = .list true (is ++ vs) ∧ All2 (ReadItem T N n f) us vs ∧
        (∀ m, f.maxOccurs = some (.int m) → vs ≠ [] → ((is ++ vs).length : Int) ≤ m) := by
  intro us
  induction us with
  | nil => intro is w h; injection h with h; subst h; exact ⟨[], by simp, .nil, fun _ _ h => absurd rfl h⟩
  | cons u us ih =>
    intro is w h
    simp only [foldE, bind_eq_ok, oneVal, if_pos hk] at h
    obtain ⟨s, h1, h2⟩ := h
    obtain ⟨v, hv, rfl, hm⟩ := itemVal_readItem rfl h1
    obtain ⟨vs, rfl, ha, hb⟩ := ih _ _ h2
    refine ⟨v :: vs, by simp, .cons hv ha, ?_⟩
    intro m hmm _
    by_cases hvs : vs = []
    · subst hvs; have := hm m hmm; simp only [List.length_append, List.length_cons, List.length_nil]; omega
    · have := hb m hmm hvs
      simp only [List.length_append, List.length_cons, List.length_nil] at this ⊢; omega

theorem newInst_list {T : Table} {N : Nat} {c : ClsId} {es : List (Str × Val)} {f : Field} (hn : NamesNodup (T c))
    (h : newInst T N c = .ok (.inst c es none)) (hf : f ∈ (T c).fields) (hk : f.kind = .list) :
    Dict.get? es f.name = some (.list true []) := by
  obtain ⟨M, es', rfl, he, hsh, hall⟩ := newInst_ok hn h
  injection he with _ he _; subst he
  obtain ⟨e, w, h1, h2, h3⟩ := hall f hf
  simp only [emptyValue, hk] at h1
  injection h1 with h1; subst h1
  simp only [Field.accept, if_pos hk] at h2
  injection h2 with h2; subst h2
  exact h3

theorem findSub_ok {f : Field} {ks l : List Xml} (h : findSub f ks = .ok l) :
    (∀ u ∈ l, u ∈ ks ∧ f.Claims u) ∧ (∀ u ∈ ks, f.Claims u → u ∈ l) := by
  induction ks generalizing l with
  | nil => injection h with h; subst h; simp
  | cons x xs ih =>
    by_cases hp : x = .pi
    · subst hp; cases h
    by_cases hc : f.Claims x
    · obtain ⟨q, a, t, k, rfl, _⟩ := id hc
      rw [findSub_take hc, map_eq_ok] at h
      obtain ⟨r, hr, rfl⟩ := h
      obtain ⟨h1, h2⟩ := ih hr
      constructor
      · intro u hu
        rcases List.mem_cons.1 hu with rfl | hu
        · exact ⟨by simp, hc⟩
        · exact ⟨by simp [(h1 u hu).1], (h1 u hu).2⟩
      · intro u hu huc
        rcases List.mem_cons.1 hu with rfl | hu
        · simp
        · simp [h2 u hu huc]
    · rw [findSub_skip hc hp] at h
      obtain ⟨h1, h2⟩ := ih h
      constructor
      · intro u hu; exact ⟨by simp [(h1 u hu).1], (h1 u hu).2⟩
      · intro u hu huc
        rcases List.mem_cons.1 hu with rfl | hu
        · exact absurd huc hc
        · exact h2 u hu huc

theorem findSub_append {f : Field} {ks ks' l : List Xml} (h : findSub f (ks ++ ks') = .ok l) :
    ∃ l1 l2, findSub f ks = .ok l1 ∧ findSub f ks' = .ok l2 ∧ l = l1 ++ l2 := by
  induction ks generalizing l with
  | nil => exact ⟨[], l, rfl, h, rfl⟩
  | cons x xs ih =>
    by_cases hp : x = .pi
    · subst hp; cases h
    by_cases hc : f.Claims x
    · obtain ⟨q, a, t, k, rfl, _⟩ := id hc
      rw [List.cons_append, findSub_take hc, map_eq_ok] at h
      obtain ⟨r, hr, rfl⟩ := h
      obtain ⟨l1, l2, h1, h2, rfl⟩ := ih hr
      exact ⟨_, l2, by rw [findSub_take hc, h1]; rfl, h2, rfl⟩
    · rw [List.cons_append, findSub_skip hc hp] at h
      obtain ⟨l1, l2, h1, h2, rfl⟩ := ih h
      exact ⟨l1, l2, by rw [findSub_skip hc hp, h1], h2, rfl⟩

theorem foldE_last {T : Table} {N n : Nat} {f : Field} (hk : f.kind ≠ .list) {us : List Xml} {u : Xml} {cur w : Val}
    (h : foldE (oneVal T (newInst T N) (parseCls T N n) f) cur (us ++ [u]) = .ok w) : ReadAs T N n f u w := by
  rw [foldE_append, bind_eq_ok] at h
  obtain ⟨s, _, h⟩ := h
  simp only [foldE, bind_eq_ok, oneVal, if_neg hk] at h
  obtain ⟨s, h1, h2⟩ := h
  injection h2 with h2; subst h2
  exact elemVal_readAs hk h1

theorem fieldVal_single {T : Table} {N n : Nat} {f : Field} {cur w : Val} {x : Xml}
    (hk : f.kind = .element ∨ f.kind = .classNamed ∨ f.kind = .list)
    (h : fieldVal T (newInst T N) (parseCls T N n) f cur x = .ok w) :
    ∃ subs, findSub f x.kids = .ok subs ∧ foldE (oneVal T (newInst T N) (parseCls T N n) f) cur subs = .ok w := by
  unfold fieldVal at h
  rcases hk with hk | hk | hk <;> rw [hk] at h <;> exact bind_eq_ok.1 h

/-- **C29 (last occurrence).** If several children belong to a single-valued field, the field ends up with what the
last of them says. -/
theorem C29_last_occurrence (T : Table) (hT : T.Wf) (N n : Nat) (c : ClsId) (hc : (T c).choice = false) (q : QName)
    (a : List (QName × Str)) (t : Option Str) (pre post : List Xml) (u : Xml) (f : Field) (hf : f ∈ (T c).fields)
    (hk : f.kind = .element ∨ f.kind = .classNamed) (hu : f.Claims u) (hpost : ∀ w ∈ post, ¬ f.Claims w) (v : Val)
    (hv : parseCls T N (n + 1) c (.elem q a t (pre ++ u :: post)) = .ok v) :
    ∃ w, v.attr f.name = some w ∧ ReadAs T N n f u w := by
  obtain ⟨es, fs, _, rfl, _, hall⟩ := (parseCls_ok_iff (hT c) hc).1 hv
  obtain ⟨e, w, _, hw, hg⟩ := hall f hf
  refine ⟨w, hg, ?_⟩
  obtain ⟨subs, hs, hw⟩ := fieldVal_single (by rcases hk with h | h <;> simp [h]) hw
  obtain ⟨l1, l2, h1, h2, rfl⟩ := findSub_append (ks := pre) hs
  obtain ⟨q', a', t', k', rfl, _⟩ := id hu
  rw [findSub_take hu, map_eq_ok] at h2
  obtain ⟨r, hr, rfl⟩ := h2
  have hre : r = [] := by
    cases r with
    | nil => rfl
    | cons y ys =>
      have := (findSub_ok hr).1 y (by simp)
      exact absurd this.2 (hpost y this.1)
  subst hre
  exact foldE_last (by rcases hk with h | h <;> simp [h]) hw

/-- Two cities: the second one counts. -/
example : ∃ v, parseCls Ex.table 5 5 1 (.elem ⟨none, py"a"⟩ [] none
    ([Ex.leaf py"city" py"X"] ++ Ex.leaf py"city" py"Y" :: [])) = .ok v ∧
    v.attr py"city" = some (.atom (.str py"Y")) := ⟨_, rfl, rfl⟩

theorem claims_bool {f : Field} {u : Xml} : f.claims u = true ↔ f.Claims u := by
  cases u with
  | elem q a t k =>
    rw [claims_iff]
    simp only [Field.claims, Field.matchesTag, Bool.or_eq_true, decide_eq_true_eq]
    constructor <;> rintro (h | h)
    · exact .inl h
    · exact .inr h.symm
    · exact .inl h
    · exact .inr h.symm
  | comment => simp [Field.claims, claims_comment]
  | pi => simp [Field.claims, claims_pi]

theorem findSub_filter {f : Field} {ks l : List Xml} (h : findSub f ks = .ok l) : l = ks.filter f.claims := by
  induction ks generalizing l with
  | nil => injection h with h; exact h.symm
  | cons x xs ih =>
    by_cases hp : x = .pi
    · subst hp; cases h
    by_cases hc : f.Claims x
    · rw [List.filter_cons_of_pos (claims_bool.2 hc)]
      obtain ⟨q, a, t, k, rfl, _⟩ := id hc
      rw [findSub_take hc, map_eq_ok] at h
      obtain ⟨r, hr, rfl⟩ := h
      rw [ih hr]
    · rw [findSub_skip hc hp] at h
      rw [List.filter_cons_of_neg (by rw [claims_bool]; exact hc)]
      exact ih h

/-- **C29 (lists).** A list field holds exactly the values of the children that belong to it, in document order. -/
theorem C29_list_in_document_order (T : Table) (hT : T.Wf) (N n : Nat) (c : ClsId) (hc : (T c).choice = false)
    (q : QName) (a : List (QName × Str)) (t : Option Str) (ks : List Xml) (f : Field) (hf : f ∈ (T c).fields)
    (hk : f.kind = .list) (v : Val) (hv : parseCls T N (n + 1) c (.elem q a t ks) = .ok v) :
    ∃ ws, v.attr f.name = some (.list true ws) ∧ All2 (ReadItem T N n f) (ks.filter f.claims) ws := by
  obtain ⟨es, fs, hes, rfl, _, hall⟩ := (parseCls_ok_iff (hT c) hc).1 hv
  obtain ⟨e, w, he, hw, hg⟩ := hall f hf
  rw [newInst_list (hT c) hes hf hk] at he
  injection he with he; subst he
  obtain ⟨subs, hs, hw⟩ := fieldVal_single (by simp [hk]) hw
  obtain ⟨vs, rfl, ha, _⟩ := foldE_items hk _ _ _ hw
  rw [findSub_filter hs] at ha
  exact ⟨vs, by simpa [Val.attr] using hg, ha⟩

/-- The tags of the example document. -/
example : ∃ v, parseCls Ex.table 5 5 0 Ex.doc = .ok v ∧
    v.attr py"tags" = some (.list true [.atom (.str py"a"), .atom (.str py"b")]) := ⟨_, rfl, rfl⟩

/-! ### C32: defaults -/

theorem newInst_empty {T : Table} {N : Nat} {c : ClsId} {es : List (Str × Val)} {f : Field} (hn : NamesNodup (T c))
    (h : newInst T N c = .ok (.inst c es none)) (hf : f ∈ (T c).fields)
    (hk : f.kind ≠ .ref ∧ f.kind ≠ .content) : ∃ w, Dict.get? es f.name = some w ∧ EmptyValue T f w := by
  obtain ⟨M, es', rfl, he, hsh, hall⟩ := newInst_ok hn h
  injection he with _ he _; subst he
  obtain ⟨e, w, h1, h2, h3⟩ := hall f hf
  refine ⟨w, h3, ?_⟩
  unfold EmptyValue
  by_cases hl : f.kind = .list
  · rw [if_pos hl]
    simp only [emptyValue, hl] at h1
    injection h1 with h1; subst h1
    simp only [Field.accept, if_pos hl] at h2
    injection h2 with h2; exact h2.symm
  · rw [if_neg hl]
    have he : e = f.default := by
      unfold emptyValue at h1
      cases hkk : f.kind <;> rw [hkk] at h1 hk hl <;> simp_all
    subst he
    simp only [Field.accept, if_neg hl, bind_eq_ok] at h2
    obtain ⟨_, _, h2⟩ := h2
    exact h2

/-- **C32 (elements).** A field none of whose elements occurs in the document has its declared default (as accepted
by the field), a list field is empty. -/
theorem C32_missing_element (T : Table) (hT : T.Wf) (N n : Nat) (c : ClsId) (hc : (T c).choice = false)
    (q : QName) (a : List (QName × Str)) (t : Option Str) (ks : List Xml) (f : Field) (hf : f ∈ (T c).fields)
    (hk : f.kind = .element ∨ f.kind = .classNamed ∨ f.kind = .list) (hks : ∀ u ∈ ks, ¬ f.Claims u) (v : Val)
    (hv : parseCls T N (n + 1) c (.elem q a t ks) = .ok v) :
    ∃ w, v.attr f.name = some w ∧ EmptyValue T f w := by
  obtain ⟨es, fs, hes, rfl, _, hall⟩ := (parseCls_ok_iff (hT c) hc).1 hv
  obtain ⟨e, w, he, hw, hg⟩ := hall f hf
  obtain ⟨subs, hs, hw⟩ := fieldVal_single hk hw
  have hsub : subs = [] := by
    cases subs with
    | nil => rfl
    | cons y ys =>
      have := (findSub_ok hs).1 y (by simp)
      exact absurd this.2 (hks y this.1)
  subst hsub
  injection hw with hw; subst hw
  obtain ⟨w, h1, h2⟩ := newInst_empty (hT c) hes hf (by rcases hk with h | h | h <;> simp [h])
  rw [h1] at he; injection he with he; subst he
  exact ⟨w, hg, h2⟩

/-- **C32 (attributes).** A missing attribute has the default as converted from text; one that is present its own
converted text. -/
theorem C32_attribute (T : Table) (hT : T.Wf) (N n : Nat) (c : ClsId) (hc : (T c).choice = false)
    (q : QName) (a : List (QName × Str)) (t : Option Str) (ks : List Xml) (f : Field) (hf : f ∈ (T c).fields)
    (hk : f.kind = .attribute) (v : Val) (hv : parseCls T N (n + 1) c (.elem q a t ks) = .ok v) :
    ∃ s b w, f.type = .simple s ∧
      s.pythonvalue (match attrGet a ⟨none, f.name⟩ with | some text => .str text | none => f.default.toAtom) = .ok b ∧
      s.accept b = .ok w ∧ v.attr f.name = some (.atom w) := by
  obtain ⟨es, fs, hes, rfl, _, hall⟩ := (parseCls_ok_iff (hT c) hc).1 hv
  obtain ⟨e, w, he, hw, hg⟩ := hall f hf
  simp only [fieldVal, hk, attrVal, bind_eq_ok] at hw
  obtain ⟨_, _, b, hb, hw⟩ := hw
  have hl : f.kind ≠ .list := by simp [hk]
  simp only [Field.accept, if_neg hl, bind_eq_ok] at hw
  obtain ⟨_, _, hw⟩ := hw
  unfold attrValue at hb
  cases ht : f.type with
  | simple s =>
    rw [ht] at hb
    simp only [Field.acceptItem, Val.isNil, Bool.false_eq_true, if_false, ht, FType.accept, map_eq_ok, Val.toAtom] at hw
    obtain ⟨d, hd, rfl⟩ := hw
    exact ⟨s, b, d, rfl, hb, hd, hg⟩
  | complex c' => rw [ht] at hb; cases hb
  | any => rw [ht] at hb; cases hb

/-- The example document has no age, so the age is None; its id is converted from text. -/
example : ∃ v, parseCls Ex.table 5 5 0 Ex.doc = .ok v ∧ v.attr py"age" = some Val.none ∧
    v.attr py"id" = some (.atom (.int 7)) := ⟨_, rfl, rfl, rfl⟩

end Soapfish
