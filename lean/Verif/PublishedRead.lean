import Verif.PairedSurvive
import Verif.ComplexLemmas
/-
Lemmas for C107: classes that go together read alike.
-/
namespace Soapfish

/-- The children of the element, and theirs, have names under which the class writes its fields. -/
inductive Known (T : Table) : ClsId → Xml → Prop where
  | mk {c : ClsId} {x : Xml} :
      (∀ q as t ks, Xml.elem q as t ks ∈ x.kids → ∃ f ∈ (T c).fields, f.kind ≠ .attribute ∧ q.loc = f.writtenName) →
      (∀ q as t ks f d, Xml.elem q as t ks ∈ x.kids → f ∈ (T c).fields → f.kind ≠ .attribute → q.loc = f.writtenName →
        f.type = .complex d → Known T d (.elem q as t ks)) → Known T c x

section
variable {R : ClsId → ClsId → Prop} {T T' : Table}

/-- No groups, no content of its own. -/
def OwnFields (T : Table) (c : ClsId) : Prop :=
  (T c).choice = false ∧ ∀ f ∈ (T c).fields, f.kind = .element ∨ f.kind = .list ∨ f.kind = .attribute

theorem flat_own {c : ClsId} (h : OwnFields T c) : flat T 1 c = (T c).fields := by
  unfold flat
  have h := h.2
  generalize (T c).fields = l at h
  induction l with
  | nil => rfl
  | cons f l ih =>
    rw [List.flatMap_cons, ih fun g hg => h g (List.mem_cons_of_mem _ hg)]
    rcases h f (List.mem_cons_self ..) with hk | hk | hk <;> rw [hk] <;> rfl

theorem matches_written (f : Field) {q : QName} (h : q.loc = f.writtenName) : f.matchesTag q = true := by
  unfold Field.matchesTag
  rw [h]
  unfold Field.writtenName
  rcases f.tagname with _ | _ | ⟨c, cs⟩ <;> simp

/-- A child written by one field is claimed by another one only if the two clash. -/
theorem matches_clash {f g : Field} {q : QName} (hf : f.kind ≠ .attribute) (hg : g.kind ≠ .attribute)
    (h : q.loc = g.writtenName) (hm : f.matchesTag q = true) : Clash f g ∧ Clash g f := by
  unfold Field.matchesTag at hm
  rw [h] at hm
  simp only [Bool.or_eq_true, decide_eq_true_eq] at hm
  rcases hm with hm | hm
  · exact ⟨.inr ⟨hf, hg, .inl hm⟩, .inr ⟨hg, hf, .inr (.inr (.inl hm))⟩⟩
  · exact ⟨.inr ⟨hf, hg, .inr (.inl hm.symm)⟩, .inr ⟨hg, hf, .inr (.inr (.inr hm.symm))⟩⟩

/-- Two fields that go together claim the same children. -/
theorem claims_pair {q : QName} : ∀ {l l' : List Field}, All2 (FieldPair R) l l' → l.Pairwise (fun f g => ¬ Clash f g) →
    l'.Pairwise (fun f g => ¬ Clash f g) → (∃ g ∈ l, g.kind ≠ .attribute ∧ q.loc = g.writtenName) →
    All2 (fun f f' => f.kind ≠ .attribute → f.matchesTag q = f'.matchesTag q) l l' ∧
      ∀ f ∈ l, f.kind ≠ .attribute → f.matchesTag q = true → q.loc = f.writtenName
  | _, _, .nil, _, _, ⟨_, h, _⟩ => absurd h List.not_mem_nil
  | _, _, .cons (a := f) (b := f') (as := l) (bs := l') hf hl, hp, hp', ⟨g, hg, hk, hq⟩ => by
    rw [List.pairwise_cons] at hp hp'
    rcases List.mem_cons.1 hg with rfl | hg
    · have hother : ∀ h ∈ l, h.kind ≠ .attribute → h.matchesTag q = false := by
        intro h hh hhk
        rw [Bool.eq_false_iff]
        exact fun hm => hp.1 h hh (matches_clash hhk hk hq hm).2
      have hk' : f'.kind ≠ .attribute := by rw [← hf.kind]; exact hk
      have hq' : q.loc = f'.writtenName := by rw [← hf.written]; exact hq
      have hother' : ∀ h ∈ l', h.kind ≠ .attribute → h.matchesTag q = false := by
        intro h hh hhk
        rw [Bool.eq_false_iff]
        exact fun hm => hp'.1 h hh (matches_clash hhk hk' hq' hm).2
      refine ⟨.cons (fun _ => ?_) ?_, ?_⟩
      · rw [matches_written _ hq, matches_written f' hq']
      · refine All2.imp_mem hl ?_
        intro h hh h' hh' hpair hhk
        rw [hother h hh hhk, hother' h' hh' (by rw [← hpair.kind]; exact hhk)]
      · intro h hh hhk hm
        rcases List.mem_cons.1 hh with rfl | hh
        · exact hq
        · rw [hother h hh hhk] at hm; cases hm
    · obtain ⟨ih1, ih2⟩ := claims_pair (q := q) hl hp.2 hp'.2 ⟨g, hg, hk, hq⟩
      obtain ⟨g', hg', hgg⟩ := hl.mem_left hg
      have hkg' : g'.kind ≠ .attribute := by rw [← hgg.kind]; exact hk
      have hqg' : q.loc = g'.writtenName := by rw [← hgg.written]; exact hq
      have h1 : f.kind ≠ .attribute → f.matchesTag q = false := by
        intro hfk
        rw [Bool.eq_false_iff]
        exact fun hm => hp.1 g hg (matches_clash hfk hk hq hm).1
      have h2 : f'.kind ≠ .attribute → f'.matchesTag q = false := by
        intro hfk
        rw [Bool.eq_false_iff]
        exact fun hm => hp'.1 g' hg' (matches_clash hfk hkg' hqg' hm).1
      refine ⟨.cons (fun hfk => ?_) ih1, ?_⟩
      · rw [h1 hfk, h2 (by rw [← hf.kind]; exact hfk)]
      · intro h hh hhk hm
        rcases List.mem_cons.1 hh with rfl | hh
        · rw [h1 hhk] at hm; cases hm
        · exact ih2 h hh hhk hm

theorem findSub_agree {f f' : Field} : ∀ {ks : List Xml},
    (∀ q as t k, Xml.elem q as t k ∈ ks → f.matchesTag q = f'.matchesTag q) → findSub f ks = findSub f' ks
  | [], _ => rfl
  | .comment :: ks, h => findSub_agree (ks := ks) fun q as t k hm => h q as t k (List.mem_cons_of_mem _ hm)
  | .pi :: _, _ => rfl
  | .elem q as t k :: ks, h => by
    unfold findSub
    rw [findSub_agree (ks := ks) fun q as t k hm => h q as t k (List.mem_cons_of_mem _ hm), h q as t k (List.mem_cons_self ..)]

/-- Accepting a simple value gives a simple value. -/
theorem acceptItem_atom {f : Field} {a : Atom} {w : Val} (h : f.acceptItem T (.atom a) = .ok w) : ∃ b, w = .atom b := by
  unfold Field.acceptItem at h
  simp only [Val.isNil, Bool.false_eq_true, if_false] at h
  unfold FType.accept at h
  split at h
  · cases hs : SType.accept _ (Val.toAtom (.atom a)) with
    | error e => rw [hs] at h; cases h
    | ok b => rw [hs] at h; exact ⟨b, (Except.ok.inj h).symm⟩
  · unfold acceptCls at h
    split at h
    · exact ⟨a, (Except.ok.inj h).symm⟩
    · cases a with
      | none => exact ⟨.none, (Except.ok.inj h).symm⟩
      | _ => cases h
  · cases h

theorem evaluate_pair (hP : Paired R T T') (self : ∀ c, c ∈ (T' c).mro) {n : Nat} {t t' : FType} (ht : TypePair R t t') {u : Unit}
    (h : evaluate (newInst T n) t = .ok u) : evaluate (newInst T' n) t' = .ok () := by
  cases ht with
  | simple => rfl
  | complex hr =>
    unfold evaluate at h ⊢
    simp only at h ⊢
    cases hn : newInst T n _ with
    | error e => rw [hn] at h; cases h
    | ok i =>
      obtain ⟨i', hi'⟩ := newInst_pair hP self n _ _ hr ⟨i, hn⟩
      rw [hi']; rfl

/-- What is read for fields that go together, before it is accepted. -/
inductive ReadPair (R : ClsId → ClsId → Prop) (T T' : Table) (f f' : Field) : Val → Val → Prop where
  | nil : ReadPair R T T' f f' .nil .nil
  | atom {a : Atom} : ReadPair R T T' f f' (.atom a) (.atom a)
  | inst {c c' fs fs' x x'} : f.type = .complex c → f'.type = .complex c' → ValPair R T T' (.inst c fs x) (.inst c' fs' x') →
      ReadPair R T T' f f' (.inst c fs x) (.inst c' fs' x')

/-- Accepting a value for fields that go together. -/
theorem acceptItem_ok (hP : Paired R T T') (self : ∀ c, c ∈ (T' c).mro) {f f' : Field} (hf : FieldPair R f f') {v v' w : Val}
    (hv : ReadPair R T T' f f' v v') (h : f.acceptItem T v = .ok w) :
    ∃ w', f'.acceptItem T' v' = .ok w' ∧ ValPair R T T' w w' := by
  cases hv with
  | atom =>
    obtain ⟨b, rfl⟩ := acceptItem_atom h
    exact ⟨_, (acceptItem_pair hP hf _).symm.trans h, .atom⟩
  | nil =>
    unfold Field.acceptItem at h ⊢
    simp only [Val.isNil, if_true] at h ⊢
    rw [← hf.nillable]
    split at h
    · rename_i hn
      rw [if_pos hn]
      exact ⟨.nil, rfl, by rw [← Except.ok.inj h]; exact .nil⟩
    · cases h
  | @inst c c' fs fs' x x' h1 h2 hv =>
    unfold Field.acceptItem at h ⊢
    simp only [Val.isNil, Bool.false_eq_true, if_false, h1, h2, FType.accept] at h ⊢
    have hw : w = .inst c fs x := by
      unfold acceptCls at h
      split at h
      · exact (Except.ok.inj h).symm
      · simp only at h
        split at h
        · exact (Except.ok.inj h).symm
        · cases h
    have hw' : acceptCls T' c' (.inst c' fs' x') = .ok (.inst c' fs' x') := by
      unfold acceptCls
      split
      · rfl
      · simp only
        rw [if_pos (by simpa [isSub] using self c')]
    exact ⟨_, hw', by rw [hw]; exact hv⟩

theorem valPairs_append : ∀ {is is' : List Val} {w w' : Val}, ValPairs R T T' is is' → ValPair R T T' w w' →
    ValPairs R T T' (is ++ [w]) (is' ++ [w'])
  | _, _, _, _, .nil, h => .cons h .nil
  | _, _, _, _, .cons h hs, h' => .cons h (valPairs_append hs h')

theorem typedAppend_pair (hP : Paired R T T') (self : ∀ c, c ∈ (T' c).mro) {n : Nat} {f f' : Field} (hf : FieldPair R f f')
    {is is' : List Val} (his : ValPairs R T T' is is') {v v' : Val} (hv : ReadPair R T T' f f' v v') {ws : List Val}
    (h : typedAppend T (newInst T n) f is v = .ok ws) :
    ∃ ws', typedAppend T' (newInst T' n) f' is' v' = .ok ws' ∧ ValPairs R T T' ws ws' := by
  unfold typedAppend at h ⊢
  obtain ⟨u, h1, h⟩ := bind_eq_ok.1 h
  obtain ⟨w, h2, h⟩ := bind_eq_ok.1 h
  obtain ⟨_, h3, h⟩ := bind_eq_ok.1 h
  obtain ⟨w', h4, h5⟩ := acceptItem_ok hP self hf hv h2
  rw [evaluate_pair hP self hf.type h1, Except_ok_bind, h4, Except_ok_bind, ← hf.maxOccurs, ← his.length, h3, Except_ok_bind]
  refine ⟨_, rfl, ?_⟩
  rw [← Except.ok.inj h]
  exact valPairs_append his h5

/-- Reading the type of a field. -/
theorem parseType_pair {pc pc' : ParseCls} {f f' : Field} (hf : FieldPair R f f') {x : Xml} {v : Val}
    (hpc : ∀ c c', f.type = .complex c → f'.type = .complex c' → R c c' → ∀ v, pc c x = .ok v →
      ∃ fs y fs' y', v = .inst c fs y ∧ pc' c' x = .ok (.inst c' fs' y') ∧ ValPair R T T' v (.inst c' fs' y'))
    (h : parseType pc f.type x = .ok v) : ∃ v', parseType pc' f'.type x = .ok v' ∧ ReadPair R T T' f f' v v' := by
  have ht := hf.type
  cases h1 : f.type with
  | simple s =>
    rw [h1] at ht h
    cases h2 : f'.type with
    | simple s' =>
      rw [h2] at ht
      cases ht with
      | simple _ e2 _ =>
        unfold parseType at h ⊢
        simp only at h ⊢
        cases x with
        | elem q a t k =>
          simp only [← e2] at h ⊢
          refine ⟨v, h, ?_⟩
          cases hs : s.pythonvalue (textAtom t) with
          | error e => rw [hs] at h; cases h
          | ok b => rw [hs] at h; rw [← Except.ok.inj h]; exact .atom
        | comment => cases h
        | pi => cases h
    | complex => rw [h2] at ht; cases ht
    | any => rw [h2] at ht; cases ht
  | complex c =>
    rw [h1] at ht h
    cases h2 : f'.type with
    | simple s' => rw [h2] at ht; cases ht
    | complex c' =>
      rw [h2] at ht
      cases ht with
      | complex hr =>
        obtain ⟨fs, y, fs', y', rfl, h4, h5⟩ := hpc c c' h1 h2 hr v h
        exact ⟨_, h4, .inst h1 h2 h5⟩
    | any => rw [h2] at ht; cases ht
  | any => rw [h1] at ht; cases ht

theorem oneVal_pair (hP : Paired R T T') (self : ∀ c, c ∈ (T' c).mro) {n : Nat} {pc pc' : ParseCls} {f f' : Field}
    (hf : FieldPair R f f') {x : Xml} {cur cur' w : Val} (hcur : ValPair R T T' cur cur')
    (htyped : f.kind = .list → ∃ is is', cur = .list true is ∧ cur' = .list true is')
    (hpc : ∀ c c', f.type = .complex c → f'.type = .complex c' → R c c' → ∀ v, pc c x = .ok v →
      ∃ fs y fs' y', v = .inst c fs y ∧ pc' c' x = .ok (.inst c' fs' y') ∧ ValPair R T T' v (.inst c' fs' y'))
    (h : oneVal T (newInst T n) pc f cur x = .ok w) :
    ∃ w', oneVal T' (newInst T' n) pc' f' cur' x = .ok w' ∧ ValPair R T T' w w' ∧
      (f.kind = .list → ∃ is is', w = .list true is ∧ w' = .list true is') := by
  unfold oneVal at h ⊢
  rw [← hf.kind]
  by_cases hk : f.kind = .list
  · rw [if_pos hk] at h ⊢
    obtain ⟨is, is', rfl, rfl⟩ := htyped hk
    have his : ValPairs R T T' is is' := by cases hcur; assumption
    unfold itemVal at h ⊢
    obtain ⟨u, h1, h⟩ := bind_eq_ok.1 h
    obtain ⟨v, h2, h⟩ := bind_eq_ok.1 h
    obtain ⟨ws, h3, h⟩ := bind_eq_ok.1 h
    rw [evaluate_pair hP self hf.type h1, Except_ok_bind]
    have : ∃ v', (if x.attr qNil ≠ none ∧ x.attr qNil ≠ some [] then .ok .nil else parseType pc' f'.type x) = .ok v' ∧
        ReadPair R T T' f f' v v' := by
      split at h2
      · rename_i hq
        rw [if_pos hq]
        exact ⟨.nil, rfl, by rw [← Except.ok.inj h2]; exact .nil⟩
      · rename_i hq
        rw [if_neg hq]
        exact parseType_pair hf hpc h2
    obtain ⟨v', h4, h5⟩ := this
    obtain ⟨ws', h6, h7⟩ := typedAppend_pair hP self hf his h5 h3
    rw [h4, Except_ok_bind]
    simp only [h6, Except_ok_bind]
    have hw : w = .list true ws := (Except.ok.inj h).symm
    exact ⟨_, rfl, by rw [hw]; exact .list h7, fun _ => ⟨ws, ws', hw, rfl⟩⟩
  · rw [if_neg hk] at h ⊢
    unfold elemVal at h ⊢
    obtain ⟨u, h1, h⟩ := bind_eq_ok.1 h
    obtain ⟨v, h2, h⟩ := bind_eq_ok.1 h
    rw [evaluate_pair hP self hf.type h1, Except_ok_bind]
    have : ∃ v', (if x.attr qNil = some py"true" then .ok .nil else parseType pc' f'.type x) = .ok v' ∧
        ReadPair R T T' f f' v v' := by
      split at h2
      · rename_i hq
        rw [if_pos hq]
        exact ⟨.nil, rfl, by rw [← Except.ok.inj h2]; exact .nil⟩
      · rename_i hq
        rw [if_neg hq]
        exact parseType_pair hf hpc h2
    obtain ⟨v', h4, h5⟩ := this
    rw [h4, Except_ok_bind]
    unfold Field.accept at h ⊢
    rw [if_neg hk] at h
    rw [if_neg (by rw [← hf.kind]; exact hk), evaluate_pair hP self hf.type h1, Except_ok_bind]
    obtain ⟨_, _, h6⟩ := bind_eq_ok.1 h
    obtain ⟨w', h7, h8⟩ := acceptItem_ok hP self hf h5 h6
    exact ⟨w', h7, h8, fun e => absurd e hk⟩

theorem foldVal_pair (hP : Paired R T T') (self : ∀ c, c ∈ (T' c).mro) {n : Nat} {pc pc' : ParseCls} {f f' : Field}
    (hf : FieldPair R f f') : ∀ {xs : List Xml} {cur cur' w : Val}, ValPair R T T' cur cur' →
    (f.kind = .list → ∃ is is', cur = .list true is ∧ cur' = .list true is') →
    (∀ x ∈ xs, ∀ c c', f.type = .complex c → f'.type = .complex c' → R c c' → ∀ v, pc c x = .ok v →
      ∃ fs y fs' y', v = .inst c fs y ∧ pc' c' x = .ok (.inst c' fs' y') ∧ ValPair R T T' v (.inst c' fs' y')) →
    foldE (oneVal T (newInst T n) pc f) cur xs = .ok w →
    ∃ w', foldE (oneVal T' (newInst T' n) pc' f') cur' xs = .ok w' ∧ ValPair R T T' w w'
  | [], _, _, _, hcur, _, _, h => ⟨_, rfl, by rw [← Except.ok.inj h]; exact hcur⟩
  | x :: xs, _, _, _, hcur, ht, hpc, h => by
    unfold foldE at h ⊢
    obtain ⟨w1, h1, h⟩ := bind_eq_ok.1 h
    obtain ⟨w1', h2, h3, h4⟩ := oneVal_pair hP self hf hcur ht (hpc x (List.mem_cons_self ..)) h1
    rw [h2, Except_ok_bind]
    exact foldVal_pair hP self hf h3 h4 (fun y hy => hpc y (List.mem_cons_of_mem _ hy)) h

/-- What a new instance has for a field. -/
theorem newField_val (hP : Paired R T T') {f f' : Field} (hf : FieldPair R f f') {nw nw' : ClsId → Except Exn Val}
    (hk : f.kind = .element ∨ f.kind = .list ∨ f.kind = .attribute) {e w e' w' : Val}
    (h1 : emptyValue nw f = .ok e) (h2 : f.accept T nw e = .ok w) (h1' : emptyValue nw' f' = .ok e')
    (h2' : f'.accept T' nw' e' = .ok w') :
    ValPair R T T' w w' ∧ (f.kind = .list → ∃ is is', w = .list true is ∧ w' = .list true is') := by
  have single : f.kind ≠ .list → emptyValue nw f = .ok f.default → emptyValue nw' f' = .ok f'.default → ValPair R T T' w w' := by
    intro hl d1 d2
    obtain ⟨a, g1, g2⟩ := hf.default
    rw [d1] at h1; rw [d2] at h1'
    cases h1; cases h1'
    unfold Field.accept at h2 h2'
    rw [if_neg hl] at h2
    rw [if_neg (by rw [← hf.kind]; exact hl)] at h2'
    obtain ⟨_, _, h2⟩ := bind_eq_ok.1 h2
    obtain ⟨_, _, h2'⟩ := bind_eq_ok.1 h2'
    rw [g1] at h2
    rw [g2, ← acceptItem_pair hP hf, h2] at h2'
    obtain ⟨b, rfl⟩ := acceptItem_atom h2
    rw [← Except.ok.inj h2']
    exact .atom
  rcases hk with hk | hk | hk
  · exact ⟨single (by rw [hk]; decide) (by unfold emptyValue; rw [hk]) (by unfold emptyValue; rw [← hf.kind, hk]),
      fun e => by rw [hk] at e; cases e⟩
  · unfold emptyValue at h1 h1'
    rw [hk] at h1
    rw [← hf.kind, hk] at h1'
    cases h1; cases h1'
    unfold Field.accept at h2 h2'
    rw [if_pos hk] at h2
    rw [if_pos (by rw [← hf.kind]; exact hk)] at h2'
    rw [← Except.ok.inj h2, ← Except.ok.inj h2']
    exact ⟨.list .nil, fun _ => ⟨_, _, rfl, rfl⟩⟩
  · exact ⟨single (by rw [hk]; decide) (by unfold emptyValue; rw [hk]) (by unfold emptyValue; rw [← hf.kind, hk]),
      fun e => by rw [hk] at e; cases e⟩

theorem attrVal_pair (hP : Paired R T T') (self : ∀ c, c ∈ (T' c).mro) {n : Nat} {f f' : Field} (hf : FieldPair R f f')
    (hk : f.kind = .attribute) {x : Xml} {w : Val} (h : attrVal T (newInst T n) f x = .ok w) :
    ∃ w', attrVal T' (newInst T' n) f' x = .ok w' ∧ ValPair R T T' w w' := by
  unfold attrVal at h ⊢
  obtain ⟨u, h1, h⟩ := bind_eq_ok.1 h
  obtain ⟨a, h2, h⟩ := bind_eq_ok.1 h
  rw [evaluate_pair hP self hf.type h1, Except_ok_bind, ← hf.attrName hk]
  have h3 : attrValue f' (x.attr ⟨none, f.name⟩) = .ok a := by
    have ht := hf.type
    obtain ⟨b, g1, g2⟩ := hf.default
    unfold attrValue at h2 ⊢
    rw [g1] at h2
    rw [g2]
    generalize f.type = t at ht h2
    generalize f'.type = t' at ht
    cases ht with
    | simple _ e2 _ => simp only [← e2]; exact h2
    | complex => cases h2
  rw [h3, Except_ok_bind]
  have hl : f.kind ≠ .list := by rw [hk]; decide
  unfold Field.accept at h ⊢
  rw [if_neg hl] at h
  rw [if_neg (by rw [← hf.kind]; exact hl), evaluate_pair hP self hf.type h1, Except_ok_bind, ← acceptItem_pair hP hf]
  obtain ⟨_, _, h⟩ := bind_eq_ok.1 h
  obtain ⟨b, rfl⟩ := acceptItem_atom h
  exact ⟨_, h, .atom⟩

theorem shaped_fields {P : Field → Val → Prop} : ∀ {l l' : List Field} {fs : List (Str × Val)},
    All2 (fun _ _ => True) l l' → fs.map (·.1) = l.map (·.name) → (l.map (·.name)).Nodup → (l'.map (·.name)).Nodup →
    All2 (fun f f' => ∀ v, Dict.get? fs f.name = some v → ∃ v', ValPair R T T' v v' ∧ P f' v') l l' →
    ∃ fs', fs'.map (·.1) = l'.map (·.name) ∧ ValPairs R T T' (fs.map (·.2)) (fs'.map (·.2)) ∧
      ∀ f' v', f' ∈ l' → Dict.get? fs' f'.name = some v' → P f' v'
  | _, _, [], .nil, _, _, _, _ => ⟨[], rfl, .nil, fun _ _ h => absurd h List.not_mem_nil⟩
  | _, _, _ :: _, .nil, h1, _, _, _ => nomatch h1
  | _, _, fs, .cons (a := f) (b := f') (as := l) (bs := l') _ hl0, h1, hn, hn', hl => by
    cases fs with
    | nil => cases h1
    | cons p fs =>
      obtain ⟨k, v⟩ := p
      simp only [List.map_cons, List.cons.injEq] at h1
      obtain ⟨rfl, h1⟩ := h1
      simp only [List.map_cons, List.nodup_cons] at hn hn'
      cases hl with
      | cons hf hl =>
      obtain ⟨v', hv, hp⟩ := hf v (by simp [Dict.get?])
      obtain ⟨fs', h2, h3, h4⟩ := shaped_fields hl0 h1 hn.2 hn'.2 (hl.imp_mem fun g hg g' _ hgv w hw => hgv w (by
        rw [Dict.get?, if_neg (fun e => hn.1 (List.mem_map.2 ⟨g, hg, e.symm⟩))]; exact hw))
      refine ⟨(f'.name, v') :: fs', by simp [h2], .cons hv h3, ?_⟩
      intro g' w hg hw
      by_cases he : f'.name = g'.name
      · rw [Dict.get?, if_pos he] at hw
        rcases List.mem_cons.1 hg with rfl | hg
        · rw [← Option.some.inj hw]; exact hp
        · exact absurd (List.mem_map.2 ⟨g', hg, he.symm⟩) hn'.1
      · rw [Dict.get?, if_neg he] at hw
        rcases List.mem_cons.1 hg with rfl | hg
        · exact absurd rfl he
        · exact h4 g' w hg hw

/-- Instances put together from the values of their fields. -/
theorem shaped_pair {c c' : ClsId} (hr : R c c') (hT : T.Wf) (hT' : T'.Wf) {fs : List (Str × Val)} (x x' : Option Xml)
    (h1 : Shaped (T c) fs) (P : Field → Val → Prop)
    (h : All2 (fun f f' => ∀ v, Dict.get? fs f.name = some v → ∃ v', ValPair R T T' v v' ∧ P f' v') (T c).fields (T' c').fields) :
    ∃ fs', Shaped (T' c') fs' ∧ ValPair R T T' (.inst c fs x) (.inst c' fs' x') ∧
      ∀ f' v', f' ∈ (T' c').fields → Dict.get? fs' f'.name = some v' → P f' v' := by
  obtain ⟨fs', g1, g2, g3⟩ := shaped_fields (h.imp fun _ _ _ => trivial) h1 (hT c) (hT' c') h
  exact ⟨fs', g1, .inst hr h1 g1 g2, g3⟩

theorem all2_forall {α β ι : Type} {S : α → β → Prop} {P : ι → Prop} {Q : ι → α → β → Prop} {l : List α} {l' : List β}
    (h0 : All2 S l l') (h : ∀ i, P i → All2 (Q i) l l') : All2 (fun a b => S a b ∧ ∀ i, P i → Q i a b) l l' := by
  induction h0 with
  | nil => exact .nil
  | cons h1 _ ih =>
    refine .cons ⟨h1, fun i hi => ?_⟩ (ih fun i hi => ?_)
    · cases h i hi; assumption
    · cases h i hi; assumption

theorem findSub_kids {f : Field} : ∀ {ks l : List Xml}, findSub f ks = .ok l →
    ∀ x ∈ l, ∃ q as t k, x = .elem q as t k ∧ x ∈ ks ∧ f.matchesTag q = true
  | [], _, h, x, hx => by rw [← Except.ok.inj h] at hx; cases hx
  | .comment :: ks, l, h, x, hx => by
    obtain ⟨q, as, t, k, h1, h2, h3⟩ := findSub_kids (ks := ks) h x hx
    exact ⟨q, as, t, k, h1, List.mem_cons_of_mem _ h2, h3⟩
  | .pi :: _, _, h, _, _ => nomatch h
  | .elem q as t k :: ks, l, h, x, hx => by
    unfold findSub at h
    obtain ⟨r, h1, h⟩ := bind_eq_ok.1 h
    have h := Except.ok.inj h
    have rest : x ∈ r → ∃ q' as' t' k', x = .elem q' as' t' k' ∧ x ∈ Xml.elem q as t k :: ks ∧ f.matchesTag q' = true := by
      intro hr
      obtain ⟨q', as', t', k', e1, e2, e3⟩ := findSub_kids (ks := ks) h1 x hr
      exact ⟨q', as', t', k', e1, List.mem_cons_of_mem _ e2, e3⟩
    rw [← h] at hx
    split at hx
    · rename_i hm
      rcases List.mem_cons.1 hx with rfl | hx
      · exact ⟨q, as, t, k, rfl, List.mem_cons_self .., hm⟩
      · exact rest hx
    · exact rest hx

/-- **Reading alike.** What one of two classes that go together reads, the other reads as a value that goes with it. -/
theorem read_pair (hP : Paired R T T') (hT : T.Wf) (hT' : T'.Sane) (hU : ∀ c c', R c c' → Unambiguous T c ∧ Unambiguous T' c')
    (hown : ∀ c c', R c c' → OwnFields T c) {N : Nat} : ∀ (n : Nat) (c c' : ClsId) (x : Xml) (v : Val), R c c' → Known T c x →
    parseCls T N n c x = .ok v → ∃ fs y fs' y', v = .inst c fs y ∧ parseCls T' N n c' x = .ok (.inst c' fs' y') ∧
      ValPair R T T' v (.inst c' fs' y')
  | 0, _, _, _, _, _, _, h => nomatch h
  | n + 1, c, c', x, v, hr, hx, h => by
    have hc := hP _ _ hr
    have ho := hown _ _ hr
    have ho' : OwnFields T' c' := by
      refine ⟨hc.choice ▸ ho.1, fun f' hf' => ?_⟩
      obtain ⟨f, hf, hp⟩ := hc.fields.mem_right hf'
      rw [← hp.kind]; exact ho.2 f hf
    obtain ⟨es, fs, h1, rfl, h2, h3⟩ := (parseCls_ok_iff (hT c) ho.1).1 h
    obtain ⟨i', hi'⟩ := newInst_pair hP hT'.self N c c' hr ⟨_, h1⟩
    obtain ⟨M, es1, hM, e1, hs1, hn1⟩ := newInst_ok (hT c) h1
    cases e1
    obtain ⟨M', es', hM', e2, hs2, hn2⟩ := newInst_ok (hT'.names c') hi'
    subst e2
    have hMM : M' = M := by omega
    subst hMM
    cases hx with
    | mk hx1 hx2 =>
    -- which children belong to which field
    have hclaims : ∀ q as t k, Xml.elem q as t k ∈ x.kids →
        All2 (fun f f' => f.kind ≠ .attribute → f.matchesTag q = f'.matchesTag q) (T c).fields (T' c').fields ∧
        ∀ f ∈ (T c).fields, f.kind ≠ .attribute → f.matchesTag q = true → q.loc = f.writtenName := by
      intro q as t k hm
      have hU1 := (hU c c' hr).1 1
      have hU2 := (hU c c' hr).2 1
      rw [flat_own ho] at hU1
      rw [flat_own ho'] at hU2
      exact claims_pair hc.fields hU1 hU2 (hx1 q as t k hm)
    have hall := all2_forall (ι := QName) (P := fun q => ∃ as t k, Xml.elem q as t k ∈ x.kids)
      (Q := fun q f f' => f.kind ≠ .attribute → f.matchesTag q = f'.matchesTag q) hc.fields
      fun q ⟨as, t, k, hm⟩ => (hclaims q as t k hm).1
    obtain ⟨fs', g1, g2, g3⟩ := shaped_pair hr hT hT'.names (some x) (some x) h2
      (fun f' v' => ∃ e', Dict.get? es' f'.name = some e' ∧ fieldVal T' (newInst T' N) (parseCls T' N n) f' e' x = .ok v')
      (hall.imp_mem fun f hf f' hf' ⟨hp, hm⟩ v hv => by
        obtain ⟨e, w, k1, k2, k3⟩ := h3 f hf
        rw [hv] at k3; cases k3
        obtain ⟨d, e0, l1, l2, l3⟩ := hn1 f hf
        rw [k1] at l3; cases l3
        obtain ⟨d', e', m1, m2, m3⟩ := hn2 f' hf'
        obtain ⟨hev, hel⟩ := newField_val hP hp (ho.2 f hf) l1 l2 m1 m2
        suffices hs : ∃ v', fieldVal T' (newInst T' N) (parseCls T' N n) f' e' x = .ok v' ∧ ValPair R T T' v v' by
          obtain ⟨v', s1, s2⟩ := hs
          exact ⟨v', s2, e', m3, s1⟩
        have seq : f.kind ≠ .attribute → (do
              let subs ← findSub f x.kids
              foldE (oneVal T (newInst T N) (parseCls T N n) f) e subs) = .ok v →
            ∃ v', (do
              let subs ← findSub f' x.kids
              foldE (oneVal T' (newInst T' N) (parseCls T' N n) f') e' subs) = .ok v' ∧ ValPair R T T' v v' := by
          intro hka hv
          obtain ⟨subs, s1, s2⟩ := bind_eq_ok.1 hv
          have : findSub f' x.kids = .ok subs := by
            rw [← s1]
            exact (findSub_agree fun q as t k hmem => hm q ⟨as, t, k, hmem⟩ hka).symm
          rw [this, Except_ok_bind]
          refine foldVal_pair hP hT'.self hp hev hel ?_ s2
          intro y hy d d' hd hd' hrd u hu
          obtain ⟨q, as, t, k, rfl, hyk, hmt⟩ := findSub_kids s1 y hy
          exact read_pair hP hT hT' hU hown n d d' _ u hrd (hx2 q as t k f d hyk hf hka
            ((hclaims q as t k hyk).2 f hf hka hmt) hd) hu
        unfold fieldVal at k2 ⊢
        rw [← hp.kind]
        rcases ho.2 f hf with hk | hk | hk
        · rw [hk] at k2 ⊢
          exact seq (by rw [hk]; decide) k2
        · rw [hk] at k2 ⊢
          exact seq (by rw [hk]; decide) k2
        · rw [hk] at k2 ⊢
          exact attrVal_pair hP hT'.self hp hk k2)
    refine ⟨fs, some x, fs', some x, rfl, (parseCls_ok_iff (hT'.names c') ho'.1).2 ⟨es', fs', hi', rfl, g1, ?_⟩, g2⟩
    intro f' hf'
    obtain ⟨v', hv'⟩ := g1.get hf'
    obtain ⟨e', k1, k2⟩ := g3 f' v' hf' hv'
    exact ⟨e', v', k1, k2, hv'⟩

end

end Soapfish
