import Verif.ServiceForget
import Verif.Sim
/-
Documents that differ in what is read but not used.
-/
namespace Soapfish

mutual
/-- The value without the fields that are not used, and without the document elements. -/
def Val.trim : Val → Val
  | .nil => .nil
  | .atom a => .atom a
  | .list t is => .list t (trimList is)
  | .inst c fs _ => .inst c (trimFields fs) Option.none
def trimList : List Val → List Val
  | [] => []
  | v :: r => v.trim :: trimList r
def trimFields : List (Str × Val) → List (Str × Val)
  | [] => []
  | p :: r => if p.1 ∈ unread then trimFields r else trimPair p :: trimFields r
def trimPair : Str × Val → Str × Val
  | (k, v) => (k, v.trim)
end

mutual
theorem forget_trim (v : Val) : v.trim.forget = v.forget := by
  match v with
  | .nil => rfl
  | .atom a => rfl
  | .list t is => simp only [Val.trim, Val.forget, forgetList_trim is]
  | .inst c fs x => simp only [Val.trim, Val.forget, forgetFields_trim fs]
theorem forgetList_trim (l : List Val) : forgetList (trimList l) = forgetList l := by
  match l with
  | [] => rfl
  | v :: r => simp only [trimList, forgetList, forget_trim v, forgetList_trim r]
theorem forgetFields_trim (l : List (Str × Val)) : forgetFields (trimFields l) = forgetFields l := by
  match l with
  | [] => rfl
  | (k, v) :: r =>
    by_cases hk : k ∈ unread
    · simp only [trimFields, forgetFields, hk, if_true, forgetFields_trim r]
    · simp only [trimFields, forgetFields, trimPair, forgetPair, hk, if_false, forget_trim v, forgetFields_trim r]
end

theorem trimList_map (l : List Val) : trimList l = l.map Val.trim := by
  induction l with
  | nil => rfl
  | cons a as ih => simp [trimList, ih]

theorem trimFields_get (fs : List (Str × Val)) (n : Str) (hn : n ∉ unread) :
    Dict.get? (trimFields fs) n = (Dict.get? fs n).map Val.trim := by
  induction fs with
  | nil => rfl
  | cons p fs ih =>
    obtain ⟨k, v⟩ := p
    rw [trimFields]
    split
    · next hk =>
      rw [ih, Dict.get?]
      rw [if_neg fun h : k = n => hn (h ▸ hk)]
    · simp only [trimPair, Dict.get?, ih]
      split <;> rfl

theorem trimFields_set (fs : List (Str × Val)) (n : Str) (v : Val) (hn : n ∉ unread) :
    trimFields (Dict.set fs n v) = Dict.set (trimFields fs) n v.trim := by
  induction fs with
  | nil => simp [Dict.set, trimFields, trimPair, hn]
  | cons p fs ih =>
    obtain ⟨k, w⟩ := p
    by_cases hkn : k = n
    · subst hkn
      simp [Dict.set, trimFields, trimPair, hn]
    · by_cases hk : k ∈ unread
      · simp [Dict.set, trimFields, hkn, hk, ih]
      · simp [Dict.set, trimFields, trimPair, hkn, hk, ih]

theorem trimFields_unread (fs : List (Str × Val)) (n : Str) (v : Val) (hn : n ∈ unread) :
    trimFields (Dict.set fs n v) = trimFields fs := by
  induction fs with
  | nil => simp [Dict.set, trimFields, hn]
  | cons p fs ih =>
    obtain ⟨k, w⟩ := p
    by_cases hkn : k = n
    · subst hkn
      simp [Dict.set, trimFields, hn]
    · by_cases hk : k ∈ unread
      · simp [Dict.set, trimFields, hkn, hk, ih]
      · simp [Dict.set, trimFields, hkn, hk, ih]

theorem trim_list {t : Bool} {is : List Val} {w : Val} (h : (Val.list t is).trim = w.trim) :
    ∃ js, w = .list t js ∧ trimList is = trimList js := by
  cases w with
  | list t' js => simp only [Val.trim, Val.list.injEq] at h; obtain ⟨rfl, h⟩ := h; exact ⟨js, rfl, h⟩
  | _ => simp [Val.trim] at h

theorem trim_inst {c : ClsId} {fs : List (Str × Val)} {x : Option Xml} {w : Val}
    (h : (Val.inst c fs x).trim = w.trim) :
    ∃ gs y, w = .inst c gs y ∧ trimFields fs = trimFields gs := by
  cases w with
  | inst c' gs y =>
    simp only [Val.trim, Val.inst.injEq, and_true] at h
    obtain ⟨rfl, h⟩ := h
    exact ⟨gs, y, rfl, h⟩
  | _ => simp [Val.trim] at h

theorem trim_nil {w : Val} (h : Val.nil.trim = w.trim) : w = .nil := by
  cases w <;> simp [Val.trim] at h ⊢

theorem trim_atom {a : Atom} {w : Val} (h : (Val.atom a).trim = w.trim) : w = .atom a := by
  cases w with
  | atom b => simp only [Val.trim, Val.atom.injEq] at h; rw [h]
  | _ => simp [Val.trim] at h

theorem trim_toAtom {v w : Val} (h : v.trim = w.trim) : v.toAtom = w.toAtom := by
  cases v with
  | nil => rw [trim_nil h]
  | atom a => rw [trim_atom h]
  | list t is => obtain ⟨js, rfl, _⟩ := trim_list h; rfl
  | inst c fs x => obtain ⟨gs, y, rfl, _⟩ := trim_inst h; rfl

theorem trim_isNil {v w : Val} (h : v.trim = w.trim) : v.isNil = w.isNil := by
  cases v with
  | nil => rw [trim_nil h]
  | atom a => rw [trim_atom h]
  | list t is => obtain ⟨js, rfl, _⟩ := trim_list h; rfl
  | inst c fs x => obtain ⟨gs, y, rfl, _⟩ := trim_inst h; rfl

theorem trim_accept {T : Table} {t : FType} {v w v' : Val} (h : v.trim = w.trim) (hv : t.accept T v = .ok v') :
    ∃ w', t.accept T w = .ok w' ∧ v'.trim = w'.trim := by
  cases t with
  | simple s =>
    simp only [FType.accept] at hv ⊢
    rw [← trim_toAtom h]
    exact ⟨v', hv, rfl⟩
  | any => cases hv
  | complex c =>
    simp only [FType.accept, acceptCls] at hv ⊢
    split at hv
    · next hh => injection hv with hv; subst hv; rw [if_pos hh]; exact ⟨w, rfl, h⟩
    · next hh =>
      rw [if_neg hh]
      cases v with
      | nil => cases hv
      | list t is => cases hv
      | atom a =>
        cases a <;> simp at hv
        subst hv
        rw [trim_atom h]
        exact ⟨_, rfl, rfl⟩
      | inst c' fs x =>
        obtain ⟨gs, y, rfl, _⟩ := trim_inst h
        simp only at hv ⊢
        split at hv
        · next hs => injection hv with hv; subst hv; rw [if_pos hs]; exact ⟨_, rfl, h⟩
        · cases hv

theorem trim_acceptItem {T : Table} {f : Field} {v w v' : Val} (h : v.trim = w.trim)
    (hv : f.acceptItem T v = .ok v') : ∃ w', f.acceptItem T w = .ok w' ∧ v'.trim = w'.trim := by
  unfold Field.acceptItem at hv ⊢
  rw [← trim_isNil h]
  split at hv
  · next h1 => rw [if_pos h1]; exact ⟨v', hv, rfl⟩
  · next h1 => rw [if_neg h1]; exact trim_accept h hv

theorem trim_fieldAccept {T : Table} {nw : ClsId → Except Exn Val} {f : Field} {v w v' : Val} (h : v.trim = w.trim)
    (hv : f.accept T nw v = .ok v') : ∃ w', f.accept T nw w = .ok w' ∧ v'.trim = w'.trim := by
  unfold Field.accept at hv ⊢
  split at hv
  · next h1 => injection hv with hv; subst hv; rw [if_pos h1]; exact ⟨w, rfl, h⟩
  · next h1 =>
    rw [if_neg h1]
    rw [bind_eq_ok] at hv
    obtain ⟨u, hu, hv⟩ := hv
    obtain ⟨w', hw, he⟩ := trim_acceptItem h hv
    exact ⟨w', bind_eq_ok.2 ⟨u, hu, hw⟩, he⟩

theorem trim_setAttr {T : Table} {nw : ClsId → Except Exn Val} {i j i' v w : Val} {name : Str}
    (hn : name ∉ unread) (hi : i.trim = j.trim) (h : v.trim = w.trim) (hv : setAttr T nw i name v = .ok i') :
    ∃ j', setAttr T nw j name w = .ok j' ∧ i'.trim = j'.trim := by
  cases i with
  | inst c fs x =>
    obtain ⟨gs, y, rfl, hg⟩ := trim_inst hi
    simp only [setAttr, bind_eq_ok] at hv ⊢
    obtain ⟨f, hf, v', hv', he⟩ := hv
    obtain ⟨w', hw', hs⟩ := trim_fieldAccept h hv'
    injection he with he; subst he
    refine ⟨_, ⟨f, hf, w', hw', rfl⟩, ?_⟩
    simp only [Val.trim, trimFields_set _ _ _ hn, hg, show v'.trim = w'.trim from hs]
  | _ => cases hv

theorem trim_typedAppend {T : Table} {nw : ClsId → Except Exn Val} {f : Field} {is js is' : List Val} {v w : Val}
    (hi : trimList is = trimList js) (h : v.trim = w.trim) (hv : typedAppend T nw f is v = .ok is') :
    ∃ js', typedAppend T nw f js w = .ok js' ∧ trimList is' = trimList js' := by
  have hlen : is.length = js.length := by
    have := congrArg List.length hi
    simpa [trimList_map] using this
  simp only [typedAppend, bind_eq_ok] at hv ⊢
  obtain ⟨u, hu, v', hv', u', hu', he⟩ := hv
  obtain ⟨w', hw', hs⟩ := trim_acceptItem h hv'
  injection he with he; subst he
  refine ⟨_, ⟨u, hu, w', hw', u', by rw [← hlen]; exact hu', rfl⟩, ?_⟩
  simp only [trimList_map, List.map_append] at hi ⊢
  rw [hi]; simp [hs]

theorem trim_appendAttr {T : Table} {nw : ClsId → Except Exn Val} {f : Field} {i j i' v w : Val}
    (hn : f.name ∉ unread) (hi : i.trim = j.trim) (h : v.trim = w.trim)
    (hv : appendAttr T nw f i v = .ok i') :
    ∃ j', appendAttr T nw f j w = .ok j' ∧ i'.trim = j'.trim := by
  cases i with
  | inst c fs x =>
    obtain ⟨gs, y, rfl, hg⟩ := trim_inst hi
    simp only [appendAttr] at hv ⊢
    have hget : (Dict.get? fs f.name).map (Val.trim) = (Dict.get? gs f.name).map (Val.trim) := by
      rw [← trimFields_get _ _ hn, ← trimFields_get _ _ hn, hg]
    cases hf : Dict.get? fs f.name with
    | none => rw [hf] at hv; cases hv
    | some a =>
      rw [hf] at hv hget
      cases hb : Dict.get? gs f.name with
      | none => rw [hb] at hget; cases hget
      | some b =>
        rw [hb] at hget
        simp only [Option.map_some, Option.some.injEq] at hget
        cases a with
        | list t is =>
          obtain ⟨js, rfl, hl⟩ := trim_list hget
          cases t with
          | false =>
            injection hv with hv; subst hv
            refine ⟨_, rfl, ?_⟩
            simp only [Val.trim, trimFields_set _ _ _ hn, hg]
            simp only [trimList_map, List.map_append, List.map_cons, List.map_nil] at hl ⊢
            rw [hl, show v.trim = w.trim from h]
          | true =>
            simp only [bind_eq_ok] at hv ⊢
            obtain ⟨is', h1, h2⟩ := hv
            obtain ⟨js', h3, h4⟩ := trim_typedAppend hl h h1
            injection h2 with h2; subst h2
            refine ⟨_, ⟨js', h3, rfl⟩, ?_⟩
            simp only [Val.trim, trimFields_set _ _ _ hn, hg, h4]
        | _ => cases hv
  | _ => cases hv


theorem ok_same {x y : Except Exn Val} {v w : Val} (h : x = y) (h1 : x = .ok v) (h2 : y = .ok w) : v.trim = w.trim := by
  rw [h1, h2] at h
  exact congrArg _ (Except.ok.inj h)

theorem trim_parseType {S : ClsId → Xml → Xml → Prop} {pc : ParseCls} {f : Field} {x y : Xml} {v w : Val}
    (hpc : ∀ c x y v w, S c x y → pc c x = .ok v → pc c y = .ok w → v.trim = w.trim)
    (h : SubSim S f x y) (hv : parseType pc f.type x = .ok v) (hw : parseType pc f.type y = .ok w) : v.trim = w.trim := by
  obtain ⟨-, h⟩ := h
  cases ht : f.type with
  | any => rw [ht] at hv; cases hv
  | complex c => rw [ht] at h hv hw; exact hpc c x y v w h hv hw
  | simple s =>
    rw [ht] at h hv hw
    simp only at h
    cases x with
    | elem q a t k =>
      cases y with
      | elem q' a' t' k' =>
        simp only [Xml.text, Option.some.injEq] at h
        subst h
        exact ok_same rfl hv hw
      | _ => simp [Xml.text] at h
    | _ => cases hv

theorem trim_parseOne {T : Table} {nw : ClsId → Except Exn Val} {S : ClsId → Xml → Xml → Prop} {pc : ParseCls}
    {f : Field} {x y : Xml} {i j i' j' : Val}
    (hpc : ∀ c x y v w, S c x y → pc c x = .ok v → pc c y = .ok w → v.trim = w.trim)
    (hn : f.name ∉ unread) (h : SubSim S f x y) (hi : i.trim = j.trim) (hv : parseOne T nw pc f i x = .ok i')
    (hw : parseOne T nw pc f j y = .ok j') : i'.trim = j'.trim := by
  unfold parseOne at hv hw
  split at hv
  · next hk =>
    rw [if_pos hk] at hw
    simp only [parseItem, bind_eq_ok] at hv hw
    obtain ⟨_, _, v, hv, hs⟩ := hv
    obtain ⟨_, _, w, hw, hs'⟩ := hw
    rw [← h.1] at hw
    have hvw : v.trim = w.trim := by
      split at hv
      · next hc => rw [if_pos hc] at hw; exact ok_same rfl hv hw
      · next hc => rw [if_neg hc] at hw; exact trim_parseType hpc h hv hw
    obtain ⟨j'', hj, he⟩ := trim_appendAttr hn hi hvw hs
    rw [hs'] at hj
    rw [he, Except.ok.inj hj]
  · next hk =>
    rw [if_neg hk] at hw
    simp only [parseElement, bind_eq_ok] at hv hw
    obtain ⟨_, _, v, hv, hs⟩ := hv
    obtain ⟨_, _, w, hw, hs'⟩ := hw
    rw [← h.1] at hw
    have hvw : v.trim = w.trim := by
      split at hv
      · next hc => rw [if_pos hc] at hw; exact ok_same rfl hv hw
      · next hc => rw [if_neg hc] at hw; exact trim_parseType hpc h hv hw
    obtain ⟨j'', hj, he⟩ := trim_setAttr hn hi hvw hs
    rw [hs'] at hj
    rw [he, Except.ok.inj hj]

theorem setAttr_unread {T : Table} {nw : ClsId → Except Exn Val} {i i' v : Val} {n : Str} (hn : n ∈ unread)
    (h : setAttr T nw i n v = .ok i') : i'.trim = i.trim := by
  cases i with
  | inst c fs x =>
    simp only [setAttr, bind_eq_ok] at h
    obtain ⟨f, hf, v', hv', he⟩ := h
    rw [← Except.ok.inj he]
    simp only [Val.trim, trimFields_unread _ _ _ hn]
  | _ => cases h

theorem parseOne_unread {T : Table} {nw : ClsId → Except Exn Val} {pc : ParseCls} {f : Field} {x : Xml} {i i' : Val}
    (hn : f.name ∈ unread) (h : parseOne T nw pc f i x = .ok i') : i'.trim = i.trim := by
  unfold parseOne at h
  split at h
  · simp only [parseItem, bind_eq_ok] at h
    obtain ⟨_, _, v, _, h⟩ := h
    cases i with
    | inst c fs x =>
      simp only [appendAttr] at h
      split at h
      · obtain ⟨l, _, h⟩ := bind_eq_ok.1 h
        rw [← Except.ok.inj h]
        simp only [Val.trim, trimFields_unread _ _ _ hn]
      · rw [← Except.ok.inj h]
        simp only [Val.trim, trimFields_unread _ _ _ hn]
      · cases h
    | _ => cases h
  · simp only [parseElement, bind_eq_ok] at h
    obtain ⟨_, _, v, _, h⟩ := h
    exact setAttr_unread hn h

theorem foldE_unread {α : Type} {f : Val → α → Except Exn Val} (h : ∀ i a i', f i a = .ok i' → i'.trim = i.trim) :
    ∀ (l : List α) {i i' : Val}, foldE f i l = .ok i' → i'.trim = i.trim
  | [], i, i', hf => by injection hf with hf; rw [hf]
  | a :: l, i, i', hf => by
    simp only [foldE, bind_eq_ok] at hf
    obtain ⟨i1, h1, h2⟩ := hf
    rw [foldE_unread h l h2, h _ _ _ h1]

theorem foldE_trim {α β : Type} {R : α → β → Prop} {f : Val → α → Except Exn Val} {g : Val → β → Except Exn Val}
    {as : List α} {bs : List β} (hR : All2 R as bs)
    (hstep : ∀ a b, R a b → ∀ i j i' j', i.trim = j.trim → f i a = .ok i' → g j b = .ok j' → i'.trim = j'.trim) :
    ∀ {i j i' j' : Val}, i.trim = j.trim → foldE f i as = .ok i' → foldE g j bs = .ok j' → i'.trim = j'.trim := by
  induction hR with
  | nil => intro i j i' j' h hf hg; injection hf with hf; injection hg with hg; rw [← hf, ← hg, h]
  | cons hr _ ih =>
    intro i j i' j' h hf hg
    simp only [foldE, bind_eq_ok] at hf hg
    obtain ⟨i1, h1, h2⟩ := hf
    obtain ⟨j1, h3, h4⟩ := hg
    exact ih (hstep _ _ hr _ _ _ _ h h1 h3) h2 h4

/-- A relation between documents that, if they are read, are read alike but for what is not used. -/
structure IsTrimSim (T : Table) (S : ClsId → Xml → Xml → Prop) : Prop where
  attrs : ∀ c x y, S c x y → ∀ f ∈ (T c).attrs, f.name ∈ unread ∨ x.attr ⟨none, f.name⟩ = y.attr ⟨none, f.name⟩
  subs : ∀ c x y, S c x y → ∀ f ∈ (T c).elems, f.name ∈ unread ∨ ∀ l l', findSub f x.kids = .ok l → findSub f y.kids = .ok l' →
    All2 (SubSim S f) l l'
  shape : ∀ c x y, S c x y → (T c).groups = [] ∧ (T c).choice = false

theorem parse_trim {T : Table} {S : ClsId → Xml → Xml → Prop} (hS : IsTrimSim T S) (N n : Nat) :
    ∀ c x y v w, S c x y → parseCls T N n c x = .ok v → parseCls T N n c y = .ok w → v.trim = w.trim := by
  induction n with
  | zero => intro c x y v w _ h; cases h
  | succ n ih =>
    intro c x y v w hxy h h'
    have hsh := hS.shape c x y hxy
    simp only [parseCls, bind_eq_ok, hsh.1, hsh.2, foldE] at h h'
    obtain ⟨i0, h0, i1, h1, i2, h2, h3⟩ := h
    obtain ⟨j0, g0, j1, g1, j2, g2, g3⟩ := h'
    rw [h0] at g0
    have := Except.ok.inj g0
    subst this
    have e1 : i1.trim = j1.trim := by
      refine foldE_trim (R := fun f g => f = g ∧ f ∈ (T c).attrs) (all2_self fun f hf => ⟨rfl, hf⟩) ?_
        (show (withXml i0 x).trim = (withXml i0 y).trim by cases i0 <;> rfl) h1 g1
      rintro f _ ⟨rfl, hf⟩ i j i' j' hij hp hq
      simp only [parseAttr, bind_eq_ok] at hp hq
      obtain ⟨_, _, a, ha, hp⟩ := hp
      obtain ⟨_, _, b, hb, hq⟩ := hq
      by_cases hn : f.name ∈ unread
      · rw [setAttr_unread hn hp, setAttr_unread hn hq, hij]
      · rw [← (hS.attrs c x y hxy f hf).resolve_left hn, ha] at hb
        have := Except.ok.inj hb
        subst this
        obtain ⟨j'', hj, he⟩ := trim_setAttr hn hij rfl hp
        rw [hq] at hj
        rw [he, Except.ok.inj hj]
    have e2 : i2.trim = j2.trim := by
      refine foldE_trim (R := fun f g => f = g ∧ f ∈ (T c).elems) (all2_self fun f hf => ⟨rfl, hf⟩) ?_ e1 h2 g2
      rintro f _ ⟨rfl, hf⟩ i j i' j' hij hp hq
      simp only [parseSeq, bind_eq_ok] at hp hq
      obtain ⟨l, hl, hp⟩ := hp
      obtain ⟨l', hl', hq⟩ := hq
      by_cases hn : f.name ∈ unread
      · rw [foldE_unread (fun _ _ _ => parseOne_unread hn) l hp, foldE_unread (fun _ _ _ => parseOne_unread hn) l' hq, hij]
      · exact foldE_trim ((hS.subs c x y hxy f hf).resolve_left hn l l' hl hl')
          (fun a b hab i j i' j' => trim_parseOne ih hn hab) hij hp hq
    rw [← Except.ok.inj h3, ← Except.ok.inj g3, e2]

end Soapfish
