import Verif.PairedLemmas
import Verif.RunNew
/-
Lemmas for C103: values that survive have counterparts that survive.
-/
namespace Soapfish

/-- The relation seen from the other side. -/
abbrev Swap (R : ClsId → ClsId → Prop) : ClsId → ClsId → Prop := fun a b => R b a

section
variable {R : ClsId → ClsId → Prop} {T T' : Table}

theorem TypePair.swap {t t' : FType} (h : TypePair R t t') : TypePair (Swap R) t' t := by
  cases h with
  | simple h1 h2 h3 h4 => exact .simple (fun a => (h1 a).symm) (fun a => (h2 a).symm) (fun a => (h3 a).symm) h4.symm
  | complex h => exact .complex h

theorem FieldPair.swap {f f' : Field} (h : FieldPair R f f') : FieldPair (Swap R) f' f where
  kind := h.kind.symm
  named := h.kind ▸ h.named
  written := h.written.symm
  attrName := fun e => (h.attrName (h.kind.trans e)).symm
  type := h.type.swap
  nillable := h.nillable.symm
  default := let ⟨a, h1, h2⟩ := h.default; ⟨a, h2, h1⟩
  nspace := h.nspace.symm
  required := h.required.symm
  minOccurs := h.minOccurs.symm
  maxOccurs := h.maxOccurs.symm

theorem Paired.swap (h : Paired R T T') : Paired (Swap R) T' T := fun c' c hr =>
  { fields := (h c c' hr).fields.flip.imp fun _ _ h => h.swap
    choice := (h c c' hr).choice.symm
    schema := (h c c' hr).schema.symm
    isGroup := (h c c' hr).isGroup.symm
    header := (h c c' hr).header.symm }

mutual
theorem ValPair.swap : ∀ {v v' : Val}, ValPair R T T' v v' → ValPair (Swap R) T' T v' v
  | _, _, .nil => .nil
  | _, _, .atom => .atom
  | _, _, .list h => .list h.swap
  | _, _, .inst hr h1 h2 h3 => .inst hr h2 h1 h3.swap
theorem ValPairs.swap : ∀ {v v' : List Val}, ValPairs R T T' v v' → ValPairs (Swap R) T' T v' v
  | _, _, .nil => .nil
  | _, _, .cons h hs => .cons h.swap hs.swap
end

/-! ### Values with the same fields -/

theorem eraseFields_keys (p : Bool) : ∀ fs, (eraseFields p fs).map (·.1) = fs.map (·.1)
  | [] => rfl
  | (k, v) :: fs => by
    show k :: (eraseFields p fs).map (·.1) = _
    rw [eraseFields_keys p fs]; rfl

theorem eraseFields_vals (p : Bool) : ∀ fs, (eraseFields p fs).map (·.2) = eraseList p (fs.map (·.2))
  | [] => rfl
  | (k, v) :: fs => by
    show v.eraseWith p :: (eraseFields p fs).map (·.2) = _
    rw [eraseFields_vals p fs]; rfl

mutual
theorem ValPair.same : ∀ {v v' w : Val}, ValPair R T T' v v' → w.Same v → ValPair R T T' w v'
  | _, _, w, .nil, h => by rw [erase_nil h.symm]; exact .nil
  | _, _, w, .atom, h => by rw [erase_atom h.symm]; exact .atom
  | _, _, w, .list hs, h => by
    obtain ⟨t, js, rfl, he⟩ := erase_list h.symm
    exact .list (hs.same he.2.symm)
  | _, _, w, .inst hr h1 h2 h3, h => by
    obtain ⟨gs, y, rfl, he⟩ := erase_inst h.symm
    refine .inst hr ?_ h2 (h3.same ?_)
    · rw [← h1, ← eraseFields_keys true gs, ← he, eraseFields_keys]
    · rw [← eraseFields_vals, ← eraseFields_vals, he]
theorem ValPairs.same : ∀ {v v' w : List Val}, ValPairs R T T' v v' → eraseList true w = eraseList true v →
    ValPairs R T T' w v'
  | _, _, [], .nil, _ => .nil
  | _, _, _ :: _, .nil, h => nomatch h
  | _, _, [], .cons _ _, h => nomatch h
  | _, _, _ :: _, .cons h hs, he => by
    have he : _ :: _ = _ :: _ := he
    injection he with h1 h2
    exact .cons (h.same h1) (hs.same h2)
end

/-! ### New instances -/

theorem acceptItem_pair (hP : Paired R T T') {f f' : Field} (hf : FieldPair R f f') (a : Atom) :
    f.acceptItem T (.atom a) = f'.acceptItem T' (.atom a) := by
  unfold Field.acceptItem
  simp only [Val.isNil, Bool.false_eq_true, if_false]
  have ht := hf.type
  generalize f.type = t at ht
  generalize f'.type = t' at ht
  cases ht with
  | simple _ _ h3 => simp only [FType.accept, Val.toAtom, h3]
  | complex hr =>
    simp only [FType.accept, acceptCls, (hP _ _ hr).header]
    split
    · rfl
    · cases a <;> rfl

theorem newField_pair (hP : Paired R T T') (self : ∀ c, c ∈ (T' c).mro) {n : Nat}
    (ih : ∀ c c', R c c' → (∃ i, newInst T n c = .ok i) → ∃ i, newInst T' n c' = .ok i) {f f' : Field}
    (hf : FieldPair R f f')
    (h : ∃ w, (do let v ← emptyValue (newInst T n) f; let w ← f.accept T (newInst T n) v; .ok (f.name, w)) = Except.ok w) :
    ∃ w, (do let v ← emptyValue (newInst T' n) f'; let w ← f'.accept T' (newInst T' n) v; .ok (f'.name, w)) = Except.ok w := by
  obtain ⟨w, h⟩ := h
  obtain ⟨v, h1, h⟩ := bind_eq_ok.1 h
  obtain ⟨u, h2, _⟩ := bind_eq_ok.1 h
  have hev : ∀ u, evaluate (newInst T n) f.type = .ok u → evaluate (newInst T' n) f'.type = .ok () := by
    intro u hu
    have ht := hf.type
    generalize f.type = t at ht hu
    generalize f'.type = t' at ht
    cases ht with
    | simple => rfl
    | complex hr =>
      unfold evaluate at hu ⊢
      simp only at hu ⊢
      cases hn : newInst T n _ with
      | error e => rw [hn] at hu; cases hu
      | ok i =>
        obtain ⟨i', hi'⟩ := ih _ _ hr ⟨i, hn⟩
        rw [hi']; rfl
  have hatom : ∀ (a : Atom), v = .atom a → f.kind ≠ .list → ∃ u', Field.accept T' (newInst T' n) f' (.atom a) = .ok u' := by
    rintro a rfl hk
    unfold Field.accept at h2 ⊢
    rw [if_neg hk] at h2
    rw [if_neg (by rw [← hf.kind]; exact hk)]
    obtain ⟨e, h3, h4⟩ := bind_eq_ok.1 h2
    rw [hev e h3, Except_ok_bind, ← acceptItem_pair hP hf]
    exact ⟨u, h4⟩
  have hgo : ∀ v', emptyValue (newInst T' n) f' = .ok v' → (∃ u', Field.accept T' (newInst T' n) f' v' = .ok u') →
      ∃ w, (do let v ← emptyValue (newInst T' n) f'; let w ← f'.accept T' (newInst T' n) v; .ok (f'.name, w)) = Except.ok w := by
    rintro v' e1 ⟨u', e2⟩
    rw [e1, Except_ok_bind, e2, Except_ok_bind]
    exact ⟨_, rfl⟩
  obtain ⟨a, hd, hd'⟩ := hf.default
  unfold emptyValue at h1
  cases hk : f.kind with
  | list =>
    refine hgo (.list true []) ?_ ⟨.list true [], ?_⟩
    · unfold emptyValue; rw [← hf.kind, hk]
    · unfold Field.accept; rw [← hf.kind, hk]; rfl
  | content =>
    rw [hk] at h1
    refine hgo Val.none ?_ (hatom .none (Except.ok.inj h1).symm (by rw [hk]; decide))
    unfold emptyValue; rw [← hf.kind, hk]
  | element =>
    rw [hk, hd] at h1
    refine hgo (.atom a) ?_ (hatom a (Except.ok.inj h1).symm (by rw [hk]; decide))
    unfold emptyValue; rw [← hf.kind, hk, hd']
  | classNamed => exact absurd hk hf.named
  | «attribute» =>
    rw [hk, hd] at h1
    refine hgo (.atom a) ?_ (hatom a (Except.ok.inj h1).symm (by rw [hk]; decide))
    unfold emptyValue; rw [← hf.kind, hk, hd']
  | ref =>
    rw [hk] at h1
    have ht := hf.type
    cases hft : f.type with
    | any => rw [hft] at ht; cases ht
    | simple s =>
      rw [hft] at h1
      refine hgo (.atom (.other 1)) ?_ (hatom _ (Except.ok.inj h1).symm (by rw [hk]; decide))
      unfold emptyValue; rw [← hf.kind, hk]
      rw [hft] at ht
      generalize f'.type = t' at ht
      cases ht; rfl
    | complex c =>
      rw [hft] at h1 ht
      cases hft' : f'.type with
      | simple => rw [hft'] at ht; cases ht
      | any => rw [hft'] at ht; cases ht
      | complex c' =>
        rw [hft'] at ht
        cases ht with
        | complex hr =>
          obtain ⟨i, hi⟩ := ih _ _ hr ⟨v, h1⟩
          refine hgo i ?_ ?_
          · unfold emptyValue; rw [← hf.kind, hk, hft']; exact hi
          · obtain ⟨fs, rfl⟩ := newInst_shape hi
            unfold Field.accept
            rw [if_neg (by rw [← hf.kind, hk]; decide), hft']
            unfold evaluate
            simp only [hi, Except.map, Except_ok_bind]
            unfold Field.acceptItem
            simp only [Val.isNil, Bool.false_eq_true, if_false, hft', FType.accept, acceptCls, isSub]
            split
            · exact ⟨_, rfl⟩
            · have hs : (T' c').mro.contains c' = true := by simpa using self c'
              simp only [hs, if_true]
              exact ⟨_, rfl⟩

theorem newInst_pair (hP : Paired R T T') (self : ∀ c, c ∈ (T' c).mro) : ∀ n c c', R c c' →
    (∃ i, newInst T n c = .ok i) → ∃ i, newInst T' n c' = .ok i
  | 0, _, _, _, ⟨_, h⟩ => nomatch h
  | n + 1, c, c', hr, ⟨i, h⟩ => by
    have ih := newInst_pair hP self n
    unfold newInst at h ⊢
    obtain ⟨fs, h1, _⟩ := bind_eq_ok.1 h
    have key : ∀ {l l' : List Field}, All2 (FieldPair R) l l' → ∀ {fs : List (Str × Val)},
        All2 (fun (f : Field) b => (do let v ← emptyValue (newInst T n) f; let w ← f.accept T (newInst T n) v; .ok (f.name, w)) = Except.ok b) l fs →
        ∃ fs', All2 (fun (f : Field) b => (do let v ← emptyValue (newInst T' n) f; let w ← f.accept T' (newInst T' n) v; .ok (f.name, w)) = Except.ok b) l' fs' := by
      intro l l' hl
      induction hl with
      | nil => intro _ _; exact ⟨[], .nil⟩
      | cons hf _ ih2 =>
        intro fs hfs
        cases hfs with
        | cons h hs =>
          obtain ⟨w, hw⟩ := newField_pair hP self ih hf ⟨_, h⟩
          obtain ⟨ws, hws⟩ := ih2 hs
          exact ⟨w :: ws, .cons hw hws⟩
    obtain ⟨fs', h2⟩ := key (hP _ _ hr).fields (mapE_ok_iff.1 h1)
    rw [mapE_ok_iff.2 h2, Except_ok_bind]
    exact ⟨_, rfl⟩

/-! ### Surviving -/

theorem valPairs_of {vs : List Val} {P : Val → Val → Prop} (h : ∀ v ∈ vs, ∃ v', ValPair R T T' v v' ∧ P v v') :
    ∃ vs', ValPairs R T T' vs vs' ∧ All2 P vs vs' := by
  induction vs with
  | nil => exact ⟨[], .nil, .nil⟩
  | cons v vs ih =>
    obtain ⟨v', h1, h2⟩ := h v (List.mem_cons_self ..)
    obtain ⟨vs', h3, h4⟩ := ih fun w hw => h w (List.mem_cons_of_mem _ hw)
    exact ⟨v' :: vs', .cons h1 h3, .cons h2 h4⟩

/-- Counterparts of all fields of an instance, in the order of the fields. -/
theorem fields_of {P : Field → Val → Prop} : ∀ {l l' : List Field} {fs : List (Str × Val)}, All2 (FieldPair R) l l' →
    fs.map (·.1) = l.map (·.name) → (l.map (·.name)).Nodup → (l'.map (·.name)).Nodup →
    (∀ f f' v, FieldPair R f f' → f ∈ l → Dict.get? fs f.name = some v → ∃ v', ValPair R T T' v v' ∧ P f' v') →
    ∃ fs', fs'.map (·.1) = l'.map (·.name) ∧ ValPairs R T T' (fs.map (·.2)) (fs'.map (·.2)) ∧
      ∀ f' v', f' ∈ l' → Dict.get? fs' f'.name = some v' → P f' v'
  | _, _, fs, .nil, h1, _, _, _ => by
    cases fs with
    | nil => exact ⟨[], rfl, .nil, fun _ _ h => absurd h List.not_mem_nil⟩
    | cons => cases h1
  | _, _, fs, .cons (a := f) (b := f') (as := l) (bs := l') hf hl, h1, hn, hn', h => by
    cases fs with
    | nil => cases h1
    | cons p fs =>
      obtain ⟨k, v⟩ := p
      simp only [List.map_cons, List.cons.injEq] at h1
      obtain ⟨rfl, h1⟩ := h1
      simp only [List.map_cons, List.nodup_cons] at hn hn'
      obtain ⟨v', hv, hp⟩ := h f f' v hf (List.mem_cons_self ..) (by simp [Dict.get?])
      obtain ⟨fs', h2, h3, h4⟩ := fields_of hl h1 hn.2 hn'.2 fun g g' w hg hgl hw =>
        h g g' w hg (List.mem_cons_of_mem _ hgl) (by
          rw [Dict.get?, if_neg (fun e => hn.1 (List.mem_map.2 ⟨g, hgl, e.symm⟩))]; exact hw)
      refine ⟨(f'.name, v') :: fs', by simp [h2], .cons hv h3, ?_⟩
      intro g' w hg hw
      by_cases he : f'.name = g'.name
      · rw [Dict.get?, if_pos he] at hw
        rcases List.mem_cons.1 hg with rfl | hg
        · rw [← Option.some.inj hw]; exact hp
        · exact absurd (List.mem_map.2 ⟨g', hg, he.symm⟩) hn'.1
      · rw [Dict.get?, if_neg he] at hw
        rcases List.mem_cons.1 hg with rfl | hg
        · exact absurd rfl he
        · exact h4 g' w hg hw

mutual
/-- A value that survives has a counterpart that survives. -/
theorem survives_pair (hP : Paired R T T') (hT : T.Wf) (hT' : T'.Wf) (self : ∀ c, c ∈ (T' c).mro)
    (hU : ∀ c c', R c c' → Unambiguous T' c') {N : Nat} : ∀ {t : FType} {v : Val}, Survives T N t v →
    ∀ t', TypePair R t t' → ∃ v', ValPair R T T' v v' ∧ Survives T' N t' v'
  | _, _, .simple h1 h2 h3, t', ht => by
    cases ht with
    | simple e1 e2 e3 => exact ⟨_, .atom, .simple (by rw [← e1]; exact h1) (by rw [← e2]; exact h2) (by rw [← e3]; exact h3)⟩
  | _, _, .inst h1 h2 h3 h4 h5 h6, t', ht => by
    cases ht with
    | complex hr =>
      have hc := hP _ _ hr
      obtain ⟨i, hi⟩ := newInst_pair hP self N _ _ hr ⟨_, h4⟩
      obtain ⟨fs', e1, e2, e3⟩ := fields_of (R := R) (T := T) (T' := T') (P := FieldSurvives T' N) hc.fields h5 (hT _) (hT' _)
        fun f f' v hf hm hv => fieldSurvives_pair hP hT hT' self hU (h6 f v hm hv) f' hf
      exact ⟨.inst _ fs' none, .inst hr h5 e1 e2, .inst (by rw [← hc.choice]; exact h1) (by rw [← hc.header]; exact h2)
        (hU _ _ hr) hi e1 e3⟩
theorem fieldSurvives_pair (hP : Paired R T T') (hT : T.Wf) (hT' : T'.Wf) (self : ∀ c, c ∈ (T' c).mro)
    (hU : ∀ c c', R c c' → Unambiguous T' c') {N : Nat} : ∀ {f : Field} {v : Val}, FieldSurvives T N f v →
    ∀ f', FieldPair R f f' → ∃ v', ValPair R T T' v v' ∧ FieldSurvives T' N f' v'
  | _, _, .absent h1 h2, f', hf => by
    obtain ⟨a, hd, hd'⟩ := hf.default
    refine ⟨_, .atom, .absent (by rw [← hf.kind]; exact h1) ?_⟩
    rw [hd', ← acceptItem_pair hP hf, ← hd]; exact h2
  | f, _, .nil h1 h2 h3, f', hf => by
    refine ⟨_, .nil, .nil (by rw [← hf.kind]; exact h1) (by rw [← hf.nillable]; exact h2) ?_⟩
    intro c' hc'
    have ht := hf.type
    rw [hc'] at ht
    cases htt : f.type with
    | complex c =>
      rw [htt] at ht
      cases ht with
      | complex hr => exact newInst_pair hP self N _ _ hr (h3 c htt)
    | simple => rw [htt] at ht; cases ht
    | any => rw [htt] at ht; cases ht
  | _, _, .element h1 h2 h3, f', hf => by
    obtain ⟨v', hv, hs⟩ := survives_pair hP hT hT' self hU h3 _ hf.type
    refine ⟨v', hv, .element (by rw [← hf.kind]; exact h1) ?_ hs⟩
    rintro rfl
    cases hv
    exact h2 rfl
  | _, _, .list h1 h2 h3, f', hf => by
    obtain ⟨vs', hv, hs⟩ := valPairs_of (R := R) (T := T) (T' := T') (P := fun _ v' => ItemSurvives T' N f' v')
      fun v hv => itemSurvives_pair hP hT hT' self hU (h3 v hv) f' hf
    refine ⟨.list true vs', .list hv, .list (by rw [← hf.kind]; exact h1) ?_ ?_⟩
    · rw [← hf.maxOccurs, ← hv.length]; exact h2
    · intro v hm
      obtain ⟨_, _, h⟩ := hs.mem_right hm
      exact h
  | _, _, .noAttr h1 h2 h3 h4 h5, f', hf => by
    obtain ⟨a, hd, hd'⟩ := hf.default
    have ht := hf.type
    rw [h3] at ht
    cases htt : f'.type with
    | simple s' =>
      rw [htt] at ht
      cases ht with
      | simple _ e2 e3 =>
        refine ⟨_, .atom, .noAttr (by rw [← hf.kind]; exact h1) ?_ htt (by rw [hd', ← e2, ← hd]; exact h4)
          (by rw [← e3]; exact h5)⟩
        rw [← hf.written, ← hf.attrName h1]; exact h2
    | complex => rw [htt] at ht; cases ht
    | any => rw [htt] at ht; cases ht
  | _, _, .attr h1 h2 h3 h4 h5 h6 h7, f', hf => by
    have ht := hf.type
    rw [h4] at ht
    cases htt : f'.type with
    | simple s' =>
      rw [htt] at ht
      cases ht with
      | simple e1 e2 e3 =>
        refine ⟨_, .atom, .attr (by rw [← hf.kind]; exact h1) ?_ h3 htt (by rw [← e1]; exact h5) (by rw [← e2]; exact h6)
          (by rw [← e3]; exact h7)⟩
        rw [← hf.written, ← hf.attrName h1]; exact h2
    | complex => rw [htt] at ht; cases ht
    | any => rw [htt] at ht; cases ht
  | _, _, .group h1 h2 h3 h4, f', hf => by
    have ht := hf.type
    rw [h2] at ht
    cases htt : f'.type with
    | complex c' =>
      rw [htt] at ht
      obtain ⟨v', hv, hs⟩ := survives_pair hP hT hT' self hU h4 _ ht
      cases ht with
      | complex hr =>
        cases hs with
        | inst e1 e2 e3 e4 e5 e6 =>
          exact ⟨_, hv, .group (by rw [← hf.kind]; exact h1) htt (by rw [← (hP _ _ hr).isGroup]; exact h3)
            (.inst e1 e2 e3 e4 e5 e6)⟩
    | simple => rw [htt] at ht; cases ht
    | any => rw [htt] at ht; cases ht
theorem itemSurvives_pair (hP : Paired R T T') (hT : T.Wf) (hT' : T'.Wf) (self : ∀ c, c ∈ (T' c).mro)
    (hU : ∀ c c', R c c' → Unambiguous T' c') {N : Nat} : ∀ {f : Field} {v : Val}, ItemSurvives T N f v →
    ∀ f', FieldPair R f f' → ∃ v', ValPair R T T' v v' ∧ ItemSurvives T' N f' v'
  | f, _, .nil h2 h3, f', hf => by
    refine ⟨_, .nil, .nil (by rw [← hf.nillable]; exact h2) ?_⟩
    intro c' hc'
    have ht := hf.type
    rw [hc'] at ht
    cases htt : f.type with
    | complex c =>
      rw [htt] at ht
      cases ht with
      | complex hr => exact newInst_pair hP self N _ _ hr (h3 c htt)
    | simple => rw [htt] at ht; cases ht
    | any => rw [htt] at ht; cases ht
  | _, _, .val h, f', hf => by
    obtain ⟨v', hv, hs⟩ := survives_pair hP hT hT' self hU h _ hf.type
    exact ⟨v', hv, .val hs⟩
end

end

end Soapfish
