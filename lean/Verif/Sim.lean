import Verif.ComplexLemmas
import Verif.Spec.Values
/-
Parsing respects similarity of documents: a general simulation lemma.
-/
namespace Soapfish

/-! ### erase -/

theorem eraseList_map (p : Bool) (l : List Val) : eraseList p l = l.map (Val.eraseWith p) := by
  induction l with
  | nil => rfl
  | cons a as ih => simp [eraseList, ih]

theorem eraseFields_map (p : Bool) (l : List (Str × Val)) :
    eraseFields p l = l.map (fun q => (q.1, q.2.eraseWith p)) := by
  induction l with
  | nil => rfl
  | cons a as ih => obtain ⟨k, v⟩ := a; simp [eraseFields, erasePair, ih]

theorem eraseFields_get (p : Bool) (fs : List (Str × Val)) (k : Str) :
    Dict.get? (eraseFields p fs) k = (Dict.get? fs k).map (Val.eraseWith p) := by
  induction fs with
  | nil => rfl
  | cons a as ih =>
    obtain ⟨k', v⟩ := a
    simp only [eraseFields, erasePair, Dict.get?]
    split
    · rfl
    · exact ih

theorem eraseFields_set (p : Bool) (fs : List (Str × Val)) (k : Str) (v : Val) :
    eraseFields p (Dict.set fs k v) = Dict.set (eraseFields p fs) k (v.eraseWith p) := by
  induction fs with
  | nil => rfl
  | cons a as ih =>
    obtain ⟨k', w⟩ := a
    simp only [eraseFields, erasePair, Dict.set]
    split
    · next h => simp [eraseFields, erasePair, h]
    · next h => simp [eraseFields, erasePair, ih]

theorem erase_inst {p : Bool} {c : ClsId} {fs : List (Str × Val)} {x : Option Xml} {w : Val}
    (h : (Val.inst c fs x).eraseWith p = w.eraseWith p) :
    ∃ gs y, w = .inst c gs y ∧ eraseFields p fs = eraseFields p gs := by
  cases w with
  | inst c' gs y =>
    simp only [Val.eraseWith, Val.inst.injEq, and_true] at h
    obtain ⟨rfl, h⟩ := h
    exact ⟨gs, y, rfl, h⟩
  | _ => simp [Val.eraseWith] at h

theorem erase_nil {p : Bool} {w : Val} (h : Val.nil.eraseWith p = w.eraseWith p) : w = .nil := by
  cases w <;> simp [Val.eraseWith] at h ⊢

theorem erase_atom {p : Bool} {a : Atom} {w : Val} (h : (Val.atom a).eraseWith p = w.eraseWith p) : w = .atom a := by
  cases w with
  | atom b => simp only [Val.eraseWith, Val.atom.injEq] at h; rw [h]
  | _ => simp [Val.eraseWith] at h

theorem erase_list {p : Bool} {t : Bool} {is : List Val} {w : Val}
    (h : (Val.list t is).eraseWith p = w.eraseWith p) :
    ∃ t' js, w = .list t' js ∧ (t && !p) = (t' && !p) ∧ eraseList p is = eraseList p js := by
  cases w with
  | list t' js => simp only [Val.eraseWith, Val.list.injEq] at h; exact ⟨t', js, rfl, h⟩
  | _ => simp [Val.eraseWith] at h

mutual
theorem eraseWith_strip (v : Val) : (v.eraseWith false).eraseWith true = v.eraseWith true := by
  match v with
  | .nil => rfl
  | .atom a => rfl
  | .list t is => simp only [Val.eraseWith, eraseList_strip is]; simp
  | .inst c fs x => simp only [Val.eraseWith, eraseFields_strip fs]
theorem eraseList_strip (l : List Val) : eraseList true (eraseList false l) = eraseList true l := by
  match l with
  | [] => rfl
  | v :: r => simp only [eraseList, eraseWith_strip v, eraseList_strip r]
theorem eraseFields_strip (l : List (Str × Val)) : eraseFields true (eraseFields false l) = eraseFields true l := by
  match l with
  | [] => rfl
  | p :: r => simp only [eraseFields, erasePair_strip p, eraseFields_strip r]
theorem erasePair_strip (p : Str × Val) : erasePair true (erasePair false p) = erasePair true p := by
  match p with
  | (k, v) => simp only [erasePair, eraseWith_strip v]
end

theorem Val.SameFields.same {v w : Val} (h : v.SameFields w) : v.Same w := by
  unfold Val.Same
  rw [← eraseWith_strip v, ← eraseWith_strip w, show v.eraseWith false = w.eraseWith false from h]

theorem same_toAtom {v w : Val} (h : v.strip = w.strip) : v.toAtom = w.toAtom := by
  cases v with
  | nil => rw [erase_nil h]
  | atom a => rw [erase_atom h]
  | list t is => obtain ⟨t', js, rfl, _⟩ := erase_list h; rfl
  | inst c fs x => obtain ⟨gs, y, rfl, _⟩ := erase_inst h; rfl

theorem same_isNil {v w : Val} (h : v.strip = w.strip) : v.isNil = w.isNil := by
  cases v with
  | nil => rw [erase_nil h]
  | atom a => rw [erase_atom h]
  | list t is => obtain ⟨t', js, rfl, _⟩ := erase_list h; rfl
  | inst c fs x => obtain ⟨gs, y, rfl, _⟩ := erase_inst h; rfl

theorem accept_same {T : Table} {t : FType} {v w v' : Val} (h : v.strip = w.strip) (hv : t.accept T v = .ok v') :
    ∃ w', t.accept T w = .ok w' ∧ v'.strip = w'.strip := by
  cases t with
  | simple s =>
    simp only [FType.accept] at hv ⊢
    rw [← same_toAtom h]
    exact ⟨v', hv, rfl⟩
  | any => cases hv
  | complex c =>
    simp only [FType.accept, acceptCls] at hv ⊢
    split at hv
    · next hh => injection hv with hv; subst hv; rw [if_pos hh]; exact ⟨w, rfl, h⟩
    · next hh =>
      rw [if_neg hh]
      cases v with
      | nil => cases hv
      | list t is => cases hv
      | atom a =>
        cases a <;> simp at hv
        subst hv
        rw [erase_atom h]
        exact ⟨_, rfl, rfl⟩
      | inst c' fs x =>
        obtain ⟨gs, y, rfl, _⟩ := erase_inst h
        simp only at hv ⊢
        split at hv
        · next hs => injection hv with hv; subst hv; rw [if_pos hs]; exact ⟨_, rfl, h⟩
        · cases hv

theorem acceptItem_same {T : Table} {f : Field} {v w v' : Val} (h : v.strip = w.strip)
    (hv : f.acceptItem T v = .ok v') : ∃ w', f.acceptItem T w = .ok w' ∧ v'.strip = w'.strip := by
  unfold Field.acceptItem at hv ⊢
  rw [← same_isNil h]
  split at hv
  · next h1 => rw [if_pos h1]; exact ⟨v', hv, rfl⟩
  · next h1 => rw [if_neg h1]; exact accept_same h hv

theorem fieldAccept_same {T : Table} {nw : ClsId → Except Exn Val} {f : Field} {v w v' : Val} (h : v.strip = w.strip)
    (hv : f.accept T nw v = .ok v') : ∃ w', f.accept T nw w = .ok w' ∧ v'.strip = w'.strip := by
  unfold Field.accept at hv ⊢
  split at hv
  · next h1 => injection hv with hv; subst hv; rw [if_pos h1]; exact ⟨w, rfl, h⟩
  · next h1 =>
    rw [if_neg h1]
    rw [bind_eq_ok] at hv
    obtain ⟨u, hu, hv⟩ := hv
    obtain ⟨w', hw, he⟩ := acceptItem_same h hv
    exact ⟨w', bind_eq_ok.2 ⟨u, hu, hw⟩, he⟩

theorem setAttr_same {T : Table} {nw : ClsId → Except Exn Val} {i j i' v w : Val} {name : Str}
    (hi : i.strip = j.strip) (h : v.strip = w.strip) (hv : setAttr T nw i name v = .ok i') :
    ∃ j', setAttr T nw j name w = .ok j' ∧ i'.strip = j'.strip := by
  cases i with
  | inst c fs x =>
    obtain ⟨gs, y, rfl, hg⟩ := erase_inst hi
    simp only [setAttr, bind_eq_ok] at hv ⊢
    obtain ⟨f, hf, v', hv', he⟩ := hv
    obtain ⟨w', hw', hs⟩ := fieldAccept_same h hv'
    injection he with he; subst he
    refine ⟨_, ⟨f, hf, w', hw', rfl⟩, ?_⟩
    simp only [Val.eraseWith, eraseFields_set, hg, show v'.eraseWith false = w'.eraseWith false from hs]
  | _ => cases hv

theorem typedAppend_same {T : Table} {nw : ClsId → Except Exn Val} {f : Field} {is js is' : List Val} {v w : Val}
    (hi : eraseList false is = eraseList false js) (h : v.strip = w.strip) (hv : typedAppend T nw f is v = .ok is') :
    ∃ js', typedAppend T nw f js w = .ok js' ∧ eraseList false is' = eraseList false js' := by
  have hlen : is.length = js.length := by
    have := congrArg List.length hi
    simpa [eraseList_map] using this
  simp only [typedAppend, bind_eq_ok] at hv ⊢
  obtain ⟨u, hu, v', hv', u', hu', he⟩ := hv
  obtain ⟨w', hw', hs⟩ := acceptItem_same h hv'
  injection he with he; subst he
  refine ⟨_, ⟨u, hu, w', hw', u', by rw [← hlen]; exact hu', rfl⟩, ?_⟩
  simp only [eraseList_map, List.map_append] at hi ⊢
  rw [hi]; simp [hs]

theorem foldE_same {α β : Type} {R : α → β → Prop} {f : Val → α → Except Exn Val} {g : Val → β → Except Exn Val}
    {as : List α} {bs : List β} (hR : All2 R as bs)
    (hstep : ∀ a b, R a b → ∀ i j i', i.strip = j.strip → f i a = .ok i' →
      ∃ j', g j b = .ok j' ∧ i'.strip = j'.strip) :
    ∀ {i j i' : Val}, i.strip = j.strip → foldE f i as = .ok i' → ∃ j', foldE g j bs = .ok j' ∧ i'.strip = j'.strip := by
  induction hR with
  | nil => intro i j i' h hf; injection hf with hf; subst hf; exact ⟨j, rfl, h⟩
  | cons hr _ ih =>
    intro i j i' h hf
    simp only [foldE, bind_eq_ok] at hf ⊢
    obtain ⟨i1, h1, h2⟩ := hf
    obtain ⟨j1, h3, h4⟩ := hstep _ _ hr _ _ _ h h1
    obtain ⟨j2, h5, h6⟩ := ih h4 h2
    exact ⟨j2, ⟨j1, h3, h5⟩, h6⟩

/-! ### Simulations -/

/-- Text of an element. -/
def Xml.text : Xml → Option (Option Str)
  | .elem _ _ t _ => some t
  | _ => none

/-- Two elements are similar as content of a field. -/
def SubSim (S : ClsId → Xml → Xml → Prop) (f : Field) (k k' : Xml) : Prop :=
  k.attr qNil = k'.attr qNil ∧
  match f.type with
  | .simple _ => k.text = k'.text
  | .complex c => S c k k'
  | .any => True

/-- A relation between documents that parsing cannot tell apart. -/
structure IsSim (T : Table) (S : ClsId → Xml → Xml → Prop) : Prop where
  attrs : ∀ c x y, S c x y → ∀ f ∈ (T c).attrs, x.attr ⟨none, f.name⟩ = y.attr ⟨none, f.name⟩
  subs : ∀ c x y, S c x y → (T c).choice = false → ∀ f ∈ (T c).elems, ∀ l, findSub f x.kids = .ok l →
    ∃ l', findSub f y.kids = .ok l' ∧ All2 (SubSim S f) l l'
  groups : ∀ c x y, S c x y → ∀ f ∈ (T c).groups, SubSim S f x y
  choice : ∀ c x y, S c x y → (T c).choice = true →
    (x = .comment ∧ y = .comment) ∨ x = .pi ∨
    ∃ q a t k q' a' t' k', x = .elem q a t k ∧ y = .elem q' a' t' k' ∧ q.loc = q'.loc ∧
      ∀ f ∈ (T c).elems, f.matchesTag q → SubSim S f x y

theorem parseType_sim {S : ClsId → Xml → Xml → Prop} {pc : ParseCls} {f : Field} {x y : Xml} {v : Val}
    (hpc : ∀ c x y v, S c x y → pc c x = .ok v → ∃ w, pc c y = .ok w ∧ v.strip = w.strip)
    (h : SubSim S f x y) (hv : parseType pc f.type x = .ok v) :
    ∃ w, parseType pc f.type y = .ok w ∧ v.strip = w.strip := by
  obtain ⟨-, h⟩ := h
  cases ht : f.type with
  | any => rw [ht] at hv; cases hv
  | complex c => rw [ht] at h hv; exact hpc c x y v h hv
  | simple s =>
    rw [ht] at h hv
    simp only at h
    cases x with
    | elem q a t k =>
      cases y with
      | elem q' a' t' k' =>
        simp only [Xml.text, Option.some.injEq] at h
        subst h
        exact ⟨v, hv, rfl⟩
      | _ => simp [Xml.text] at h
    | _ => cases hv

theorem parseElement_sim {T : Table} {nw : ClsId → Except Exn Val} {S : ClsId → Xml → Xml → Prop} {pc : ParseCls}
    {f : Field} {x y : Xml} {i j i' : Val}
    (hpc : ∀ c x y v, S c x y → pc c x = .ok v → ∃ w, pc c y = .ok w ∧ v.strip = w.strip)
    (h : SubSim S f x y) (hi : i.strip = j.strip) (hv : parseElement T nw pc f i x = .ok i') :
    ∃ j', parseElement T nw pc f j y = .ok j' ∧ i'.strip = j'.strip := by
  simp only [parseElement, bind_eq_ok] at hv ⊢
  obtain ⟨u, hu, v, hv, hs⟩ := hv
  rw [← h.1]
  split at hv
  · next hn =>
    rw [if_pos hn]
    injection hv with hv; subst hv
    obtain ⟨j', hj, he⟩ := setAttr_same hi rfl hs
    exact ⟨j', ⟨u, hu, .nil, rfl, hj⟩, he⟩
  · next hn =>
    rw [if_neg hn]
    obtain ⟨w, hw, he⟩ := parseType_sim hpc h hv
    obtain ⟨j', hj, he⟩ := setAttr_same hi he hs
    exact ⟨j', ⟨u, hu, w, hw, hj⟩, he⟩

theorem appendAttr_same {T : Table} {nw : ClsId → Except Exn Val} {f : Field} {i j i' v w : Val}
    (hi : i.strip = j.strip) (h : v.strip = w.strip)
    (hv : appendAttr T nw f i v = .ok i') :
    ∃ j', appendAttr T nw f j w = .ok j' ∧ i'.strip = j'.strip := by
  cases i with
  | inst c fs x =>
    obtain ⟨gs, y, rfl, hg⟩ := erase_inst hi
    simp only [appendAttr] at hv ⊢
    have hget : (Dict.get? fs f.name).map (Val.eraseWith false) = (Dict.get? gs f.name).map (Val.eraseWith false) := by
      rw [← eraseFields_get, ← eraseFields_get, hg]
    cases hf : Dict.get? fs f.name with
    | none => rw [hf] at hv; cases hv
    | some a =>
      rw [hf] at hv hget
      cases hb : Dict.get? gs f.name with
      | none => rw [hb] at hget; cases hget
      | some b =>
        rw [hb] at hget
        simp only [Option.map_some, Option.some.injEq] at hget
        cases a with
        | list t is =>
          obtain ⟨t', js, rfl, ht, hl⟩ := erase_list hget
          simp only [Bool.not_false, Bool.and_true] at ht
          subst ht
          cases t with
          | false =>
            injection hv with hv; subst hv
            refine ⟨_, rfl, ?_⟩
            simp only [Val.eraseWith, eraseFields_set, hg]
            simp only [eraseList_map, List.map_append, List.map_cons, List.map_nil] at hl ⊢
            rw [hl, show v.eraseWith false = w.eraseWith false from h]
          | true =>
            simp only [bind_eq_ok] at hv ⊢
            obtain ⟨is', h1, h2⟩ := hv
            obtain ⟨js', h3, h4⟩ := typedAppend_same hl h h1
            injection h2 with h2; subst h2
            refine ⟨_, ⟨js', h3, rfl⟩, ?_⟩
            simp only [Val.eraseWith, eraseFields_set, hg, h4]
        | _ => cases hv
  | _ => cases hv

theorem parseItem_sim {T : Table} {nw : ClsId → Except Exn Val} {S : ClsId → Xml → Xml → Prop} {pc : ParseCls}
    {f : Field} {x y : Xml} {i j i' : Val}
    (hpc : ∀ c x y v, S c x y → pc c x = .ok v → ∃ w, pc c y = .ok w ∧ v.strip = w.strip)
    (h : SubSim S f x y) (hi : i.strip = j.strip) (hv : parseItem T nw pc f i x = .ok i') :
    ∃ j', parseItem T nw pc f j y = .ok j' ∧ i'.strip = j'.strip := by
  simp only [parseItem, bind_eq_ok] at hv ⊢
  obtain ⟨u, hu, v, hv, hs⟩ := hv
  rw [← h.1]
  split at hv
  · next hn =>
    rw [if_pos hn]
    injection hv with hv; subst hv
    obtain ⟨j', hj, he⟩ := appendAttr_same hi rfl hs
    exact ⟨j', ⟨u, hu, .nil, rfl, hj⟩, he⟩
  · next hn =>
    rw [if_neg hn]
    obtain ⟨w, hw, he⟩ := parseType_sim hpc h hv
    obtain ⟨j', hj, he⟩ := appendAttr_same hi he hs
    exact ⟨j', ⟨u, hu, w, hw, hj⟩, he⟩

theorem parseOne_sim {T : Table} {nw : ClsId → Except Exn Val} {S : ClsId → Xml → Xml → Prop} {pc : ParseCls}
    {f : Field} {x y : Xml} {i j i' : Val}
    (hpc : ∀ c x y v, S c x y → pc c x = .ok v → ∃ w, pc c y = .ok w ∧ v.strip = w.strip)
    (h : SubSim S f x y) (hi : i.strip = j.strip) (hv : parseOne T nw pc f i x = .ok i') :
    ∃ j', parseOne T nw pc f j y = .ok j' ∧ i'.strip = j'.strip := by
  unfold parseOne at hv ⊢
  split at hv
  · next hk => rw [if_pos hk]; exact parseItem_sim hpc h hi hv
  · next hk => rw [if_neg hk]; exact parseElement_sim hpc h hi hv

theorem parseAttr_sim {T : Table} {nw : ClsId → Except Exn Val} {f : Field} {x y : Xml} {i j i' : Val}
    (h : x.attr ⟨none, f.name⟩ = y.attr ⟨none, f.name⟩) (hi : i.strip = j.strip)
    (hv : parseAttr T nw f i x = .ok i') :
    ∃ j', parseAttr T nw f j y = .ok j' ∧ i'.strip = j'.strip := by
  simp only [parseAttr, bind_eq_ok] at hv ⊢
  obtain ⟨u, hu, v, hv, hs⟩ := hv
  obtain ⟨j', hj, he⟩ := setAttr_same hi rfl hs
  exact ⟨j', ⟨u, hu, v, by rw [← h]; exact hv, hj⟩, he⟩

theorem parseChoice_sim {T : Table} {nw : ClsId → Except Exn Val} {S : ClsId → Xml → Xml → Prop} {pc : ParseCls}
    {x y : Xml} {i j i' : Val} {fs : List Field}
    (hpc : ∀ c x y v, S c x y → pc c x = .ok v → ∃ w, pc c y = .ok w ∧ v.strip = w.strip)
    (h : (x = .comment ∧ y = .comment) ∨ x = .pi ∨
      ∃ q a t k q' a' t' k', x = .elem q a t k ∧ y = .elem q' a' t' k' ∧ q.loc = q'.loc ∧
      ∀ f ∈ fs, f.matchesTag q → SubSim S f x y) (hi : i.strip = j.strip)
    (hv : parseChoice T nw pc x i fs = .ok i') :
    ∃ j', parseChoice T nw pc y j fs = .ok j' ∧ i'.strip = j'.strip := by
  induction fs with
  | nil => injection hv with hv; subst hv; exact ⟨j, rfl, hi⟩
  | cons f fs ih =>
    rcases h with ⟨rfl, rfl⟩ | rfl | ⟨q, a, t, k, q', a', t', k', rfl, rfl, hl, hS⟩
    · exact ih (.inl ⟨rfl, rfl⟩) hv
    · cases hv
    · have hm : f.matchesTag q' = f.matchesTag q := by simp [Field.matchesTag, hl]
      simp only [parseChoice] at hv ⊢
      rw [hm]
      split at hv
      · next hq => rw [if_pos hq]; exact parseOne_sim hpc (hS f (by simp) hq) hi hv
      · next hq =>
        rw [if_neg hq]
        exact ih (.inr (.inr ⟨q, a, t, k, q', a', t', k', rfl, rfl, hl, fun g hg => hS g (by simp [hg])⟩)) hv

theorem withXml_same (v : Val) (x y : Xml) : (withXml v x).strip = (withXml v y).strip := by
  cases v <;> rfl

theorem all2_self {α : Type} {R : α → α → Prop} {l : List α} (h : ∀ a ∈ l, R a a) : All2 R l l := by
  induction l with
  | nil => exact .nil
  | cons a as ih => exact .cons (h a (by simp)) (ih fun b hb => h b (by simp [hb]))

/-- Similar documents parse to the same field values. -/
theorem parse_sim {T : Table} {S : ClsId → Xml → Xml → Prop} (hS : IsSim T S) (N n : Nat) :
    ∀ c x y v, S c x y → parseCls T N n c x = .ok v → ∃ w, parseCls T N n c y = .ok w ∧ v.strip = w.strip := by
  induction n with
  | zero => intro c x y v _ h; cases h
  | succ n ih =>
    intro c x y v hxy h
    simp only [parseCls, bind_eq_ok] at h ⊢
    obtain ⟨i0, h0, i1, h1, i2, h2, h3⟩ := h
    obtain ⟨j1, hj1, e1⟩ := foldE_same (R := fun f g => f = g ∧ f ∈ (T c).attrs)
      (g := fun i f => parseAttr T (newInst T N) f i y) (all2_self (by intro f hf; exact ⟨rfl, hf⟩))
      (by
        rintro f _ ⟨rfl, hf⟩ i j i' hij hp
        exact parseAttr_sim (hS.attrs c x y hxy f hf) hij hp)
      (withXml_same i0 x y) h1
    have hmid : ∃ j2, (if (T c).choice then parseChoice T (newInst T N) (parseCls T N n) y j1 (T c).elems
        else foldE (parseSeq T (newInst T N) (parseCls T N n) y) j1 (T c).elems) = .ok j2 ∧ i2.strip = j2.strip := by
      split at h2
      · next hc =>
        rw [if_pos hc]
        exact parseChoice_sim ih (hS.choice c x y hxy hc) e1 h2
      · next hc =>
        rw [if_neg hc]
        refine foldE_same (R := fun f g => f = g ∧ f ∈ (T c).elems) (all2_self (by intro f hf; exact ⟨rfl, hf⟩)) ?_ e1 h2
        rintro f _ ⟨rfl, hf⟩ i j i' hij hp
        simp only [parseSeq, bind_eq_ok] at hp ⊢
        obtain ⟨l, hl, hp⟩ := hp
        obtain ⟨l', hl', hll⟩ := hS.subs c x y hxy (by simpa using hc) f hf l hl
        obtain ⟨j', hj', he⟩ := foldE_same hll (fun a b hab i j i' hij hp => parseOne_sim ih hab hij hp) hij hp
        exact ⟨j', ⟨l', hl', hj'⟩, he⟩
    obtain ⟨j2, hj2, e2⟩ := hmid
    obtain ⟨j3, hj3, e3⟩ := foldE_same (R := fun f g => f = g ∧ f ∈ (T c).groups)
      (g := fun i f => parseElement T (newInst T N) (parseCls T N n) f i y)
      (all2_self (by intro f hf; exact ⟨rfl, hf⟩))
      (by
        rintro f _ ⟨rfl, hf⟩ i j i' hij hp
        exact parseElement_sim ih (hS.groups c x y hxy f hf) hij hp)
      e2 h3
    exact ⟨j3, ⟨i0, h0, j1, hj1, j2, hj2, hj3⟩, e3⟩

end Soapfish
