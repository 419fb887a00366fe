import Verif.RunTableLemmas
/-
Creating instances of the classes of an imported module: `instantiate` (`Verif/Run.lean`) and `newInst`
(`Verif/Complex.lean`) agree.
-/
set_option maxRecDepth 8000
namespace Soapfish

theorem SType.accept_none (t : SType) : t.accept .none = .ok .none := by
  cases t <;> rfl

section
variable {compile : Str → Pattern} {iso : Iso} {env : PyEnv} {s : GSchema} {T : Table}

/-- The type of a field: what kind it is. -/
theorem ftype_cases {u : TypeUse} {t : FType} (h : u.ftype compile iso env = some t) :
    (∃ n o, u.target env = .ok (.complex n) ∧ env.get n = some (.complex o) ∧ t = .complex (env.idOf n)) ∨
    (∃ o, u.target env = .ok (.simple o) ∧ o.noAccept = true ∧ t = .any) ∨
    (∃ o x st, u.target env = .ok (.simple o) ∧ o.noAccept = false ∧ u.obj env = .ok x ∧ x.stype compile iso = some st ∧
      t = .simple st) ∨
    (∃ x, u.target env = .ok (.inst x) ∧ (x.cls.root = some .list ∨ x.cls.root = some .anyType) ∧ t = .any) ∨
    (∃ x st, u.target env = .ok (.inst x) ∧ ¬ (x.cls.root = some .list ∨ x.cls.root = some .anyType) ∧
      u.obj env = .ok x ∧ x.stype compile iso = some st ∧ t = .simple st) := by
  unfold TypeUse.ftype at h
  split at h
  · rename_i n hn
    split at h
    · rename_i o ho
      exact .inl ⟨n, o, hn, ho, (Option.some.inj h).symm⟩
    · cases h
  · rename_i o ho
    split at h
    · rename_i hno
      exact .inr (.inl ⟨o, ho, hno, (Option.some.inj h).symm⟩)
    · rename_i hno
      cases hx : u.obj env with
      | error e => rw [hx] at h; cases h
      | ok x =>
        rw [hx] at h
        simp only [TypeUse.ftype.objType] at h
        cases hs : x.stype compile iso with
        | none => rw [hs] at h; cases h
        | some st =>
          rw [hs] at h
          exact .inr (.inr (.inl ⟨o, x, st, ho, by simpa using hno, rfl, hs, (Option.some.inj h).symm⟩))
  · rename_i x hxt
    split at h
    · rename_i hno
      exact .inr (.inr (.inr (.inl ⟨x, hxt, hno, (Option.some.inj h).symm⟩)))
    · rename_i hno
      have hx : u.obj env = .ok x := by unfold TypeUse.obj; rw [hxt]; rfl
      rw [hx] at h
      simp only [TypeUse.ftype.objType] at h
      cases hs : x.stype compile iso with
      | none => rw [hs] at h; cases h
      | some st =>
        rw [hs] at h
        exact .inr (.inr (.inr (.inr ⟨x, st, hxt, hno, hx, hs, (Option.some.inj h).symm⟩)))
  · cases h

/-- What `accept` of a simple type does with an object that is no value. -/
theorem stype_accept_other {x : TypeObj} {st : SType} (hs : x.stype compile iso = some st) :
    (st.accept (.other 1)).map (fun _ => ()) = acceptSelf x.cls := by
  have hcase : ∀ b, x.cls.root = some b → (st.accept (.other 1)).map (fun _ => ()) = acceptSelf x.cls := by
    intro b hb
    unfold TypeObj.stype at hs
    unfold acceptSelf
    rw [hb] at hs ⊢
    cases b <;> simp only [Option.map_eq_some_iff, Option.some.injEq] at hs <;>
      first
      | (subst hs; rfl)
      | (obtain ⟨f, _, rfl⟩ := hs; rfl)
      | cases hs
  cases hr : x.cls.root with
  | none => unfold TypeObj.stype at hs; rw [hr] at hs; cases hs
  | some b => exact hcase b hr

theorem obj_of_target {u : TypeUse} {o : SimpleObj} {x : TypeObj} (h : u.target env = .ok (.simple o)) (hx : u.obj env = .ok x) :
    x.cls = o.cls := by
  unfold TypeUse.obj at hx
  rw [h] at hx
  have := Except.ok.inj hx
  rw [← this]
  unfold instanceOf
  split <;> rfl

theorem forX_congr {α : Type} {f g : α → Except Exn Unit} {l : List α} (h : ∀ a ∈ l, f a = g a) : forX f l = forX g l := by
  induction l with
  | nil => rfl
  | cons a l ih =>
    unfold forX
    rw [h a List.mem_cons_self, ih fun b hb => h b (List.mem_cons_of_mem _ hb)]

theorem mapE_forX {α β γ : Type} {f : α → Except Exn β} {g : γ → Except Exn Unit} {l : List α} {r : List γ}
    (h : All2 (fun c a => (f a).map (fun _ => ()) = g c) r l) : (mapE f l).map (fun _ => ()) = forX g r := by
  induction h with
  | nil => rfl
  | @cons c a r l hca _ ih =>
    unfold mapE forX
    rw [← hca, ← ih]
    cases f a with
    | error e => rfl
    | ok b =>
      show Except.map _ (Except.bind (mapE f l) _) = _
      cases mapE f l <;> rfl

theorem newInst_shape {N : Nat} {c : ClsId} {v : Val} (h : newInst T N c = .ok v) : ∃ fs, v = .inst c fs none := by
  cases N with
  | zero => cases h
  | succ N =>
    unfold newInst at h
    cases hm : mapE (fun f => do
        let v ← emptyValue (newInst T N) f
        let w ← f.accept T (newInst T N) v
        .ok (f.name, w)) (T c).fields with
    | error e => rw [hm] at h; cases h
    | ok fs => rw [hm] at h; exact ⟨fs, (Except.ok.inj h).symm⟩

/-- Setting a field of a new instance. -/
def initOf (T : Table) (nw : ClsId → Except Exn Val) (f : Field) : Except Exn (Str × Val) := do
  let v ← emptyValue nw f
  let w ← f.accept T nw v
  .ok (f.name, w)

theorem initOf_item {nw : ClsId → Except Exn Val} {f : Field} (hk : f.kind = .attribute ∨ f.kind = .element)
    (hd : f.default = Val.none) (hh : ∀ c, f.type = .complex c → (T c).header = false) :
    (initOf T nw f).map (fun _ => ()) = match f.type with
      | .simple _ => .ok ()
      | .complex c => (nw c).map (fun _ => ())
      | .any => .error .notImplemented := by
  have he : emptyValue nw f = .ok Val.none := by
    unfold emptyValue
    rcases hk with h | h <;> rw [h, hd]
  have hl : f.kind ≠ .list := by rcases hk with h | h <;> rw [h] <;> decide
  unfold initOf
  rw [he]
  show Except.map _ (Except.bind (f.accept T nw Val.none) _) = _
  unfold Field.accept
  rw [if_neg hl]
  unfold evaluate Field.acceptItem
  have hn : Val.isNil Val.none = false := rfl
  rw [hn]
  cases ht : f.type with
  | simple t =>
    show Except.map _ (Except.bind ((t.accept .none).map Val.atom) _) = _
    rw [SType.accept_none]; rfl
  | complex c =>
    show Except.map _ (Except.bind (Except.bind ((nw c).map (fun _ => ())) _) _) = (nw c).map (fun _ => ())
    cases nw c with
    | error e => rfl
    | ok v =>
      show Except.map _ (Except.bind (acceptCls T c Val.none) _) = _
      unfold acceptCls
      rw [hh c ht]; rfl
  | any => rfl

theorem initOf_ref {nw : ClsId → Except Exn Val} {f : Field} (hk : f.kind = .ref)
    (hh : ∀ c, f.type = .complex c → (T c).header = false ∧ isSub T c c = true ∧
      ∀ v, nw c = .ok v → ∃ fs, v = .inst c fs none) :
    (initOf T nw f).map (fun _ => ()) = match f.type with
      | .simple t => (t.accept (.other 1)).map (fun _ => ())
      | .complex c => (nw c).map (fun _ => ())
      | .any => .error .notImplemented := by
  have hl : f.kind ≠ .list := by rw [hk]; decide
  have ha : ∀ v, f.accept T nw v = (do evaluate nw f.type; f.acceptItem T v) := fun v => if_neg hl
  unfold initOf
  simp only [ha]
  unfold evaluate Field.acceptItem emptyValue
  rw [hk]
  cases ht : f.type with
  | simple t =>
    show Except.map _ (Except.bind ((t.accept (.other 1)).map Val.atom) _) = (t.accept (.other 1)).map (fun _ => ())
    cases t.accept (.other 1) <;> rfl
  | complex c =>
    obtain ⟨h1, h2, h3⟩ := hh c ht
    show Except.map _ (Except.bind (nw c) fun v => Except.bind (Except.bind ((nw c).map (fun _ => ())) _) _) = (nw c).map (fun _ => ())
    cases hn : nw c with
    | error e => rfl
    | ok v =>
      obtain ⟨fs, rfl⟩ := h3 v hn
      show Except.map _ (Except.bind (acceptCls T c (.inst c fs none)) _) = _
      unfold acceptCls
      rw [h1]
      show Except.map _ (Except.bind (if isSub T c c = true then Except.ok (Val.inst c fs none) else Except.error Exn.valueError) _) = _
      rw [h2]; rfl
  | any => rfl

theorem initField_initOf (hT : moduleTable compile iso env s = some T) {N : Nat}
    (ih : ∀ {n : Str} {o : ComplexObj}, env.get n = some (.complex o) →
      (newInst T N (env.idOf n)).map (fun _ => ()) = instantiate env N n)
    {n : Str} {o : FieldObj} {f : Field} (hf : FieldObj.field compile iso env n o = some f) :
    (initOf T (newInst T N) f).map (fun _ => ()) = initField env (instantiate env N) o := by
  obtain ⟨-, hd, -, hty⟩ := field_name hf
  have hcx : ∀ c, f.type = .complex c → (T c).header = false ∧ isSub T c c = true := by
    intro c hc
    rcases ftype_cases hty with ⟨n, o, _, ho, h⟩ | ⟨_, _, _, h⟩ | ⟨_, _, _, _, _, _, _, h⟩ | ⟨_, _, _, h⟩ | ⟨_, _, _, _, _, _, h⟩ <;>
      rw [hc] at h
    · cases h
      have := cls_parts (moduleTable_class hT ho)
      refine ⟨this.2.2.2.2.2, ?_⟩
      unfold isSub
      rw [this.2.1]
      simp
    all_goals cases h
  have item : ∀ u : TypeUse, o.type = u → (f.kind = .attribute ∨ f.kind = .element) →
      (initOf T (newInst T N) f).map (fun _ => ()) = (do
        match ← u.target env with
        | .simple o => if o.noAccept then .error .notImplemented else .ok ()
        | .complex n => instantiate env N n
        | .inst t => if t.cls.root = some .list ∨ t.cls.root = some .anyType then .error .notImplemented else .ok ()
        | _ => .error .typeError) := by
    intro u hu hk
    rw [initOf_item hk hd fun c hc => (hcx c hc).1]
    rw [hu] at hty
    rcases ftype_cases hty with ⟨n, o, h1, ho, h⟩ | ⟨o, h1, h2, h⟩ | ⟨o, x, st, h1, h2, _, _, h⟩ | ⟨x, h1, h2, h⟩ | ⟨x, st, h1, h2, _, _, h⟩ <;>
      rw [h, h1]
    · exact ih ho
    · exact (if_pos h2).symm
    · exact (if_neg (by rw [h2]; decide)).symm
    · exact (if_pos h2).symm
    · exact (if_neg h2).symm
  have ref : ∀ u : TypeUse, o.type = u → f.kind = .ref →
      (initOf T (newInst T N) f).map (fun _ => ()) = (do
        match ← u.target env with
        | .simple o => acceptSelf o.cls
        | .complex n => instantiate env N n
        | .inst t => acceptSelf t.cls
        | _ => .error .typeError) := by
    intro u hu hk
    rw [initOf_ref hk fun c hc => ⟨(hcx c hc).1, (hcx c hc).2, fun v hv => newInst_shape hv⟩]
    rw [hu] at hty
    rcases ftype_cases hty with ⟨n, o, h1, ho, h⟩ | ⟨o, h1, h2, h⟩ | ⟨o, x, st, h1, h2, h3, h4, h⟩ | ⟨x, h1, h2, h⟩ | ⟨x, st, h1, h2, h3, h4, h⟩ <;>
      rw [h, h1]
    · exact ih ho
    · show _ = acceptSelf o.cls
      unfold acceptSelf
      rw [if_pos (by simpa [SimpleObj.noAccept] using h2)]
    · show _ = acceptSelf o.cls
      rw [← obj_of_target h1 h3]
      exact stype_accept_other h4
    · show _ = acceptSelf x.cls
      unfold acceptSelf
      rw [if_pos h2]
    · exact stype_accept_other h4
  cases o with
  | «attribute» u tag use =>
    refine item u rfl (.inl ?_)
    simp only [FieldObj.field] at hf
    cases hu : u.ftype compile iso env with
    | none => rw [hu] at hf; cases hf
    | some t => rw [hu] at hf; rw [← Option.some.inj hf]
  | element u tag m nl =>
    refine item u rfl (.inr ?_)
    simp only [FieldObj.field] at hf
    cases hu : u.ftype compile iso env with
    | none => rw [hu] at hf; cases hf
    | some t => rw [hu] at hf; rw [← Option.some.inj hf]
  | ref u =>
    refine ref u rfl ?_
    simp only [FieldObj.field] at hf
    cases hu : u.ftype compile iso env with
    | none => rw [hu] at hf; cases hf
    | some t => rw [hu] at hf; rw [← Option.some.inj hf]
  | list u tag m b nl =>
    simp only [FieldObj.field] at hf
    cases hu : u.ftype compile iso env with
    | none => rw [hu] at hf; cases hf
    | some t => rw [hu] at hf; rw [← Option.some.inj hf]; rfl

/-- A new instance of a class of the module: both models say the same. -/
theorem newInst_instantiate (hT : moduleTable compile iso env s = some T) : ∀ (N : Nat) {n : Str} {o : ComplexObj},
    env.get n = some (.complex o) → (newInst T N (env.idOf n)).map (fun _ => ()) = instantiate env N n := by
  intro N
  induction N with
  | zero => intro n o _; rfl
  | succ N ih =>
    intro n o ho
    have hcls := cls_parts (moduleTable_class hT ho)
    have hu : instantiate env (N + 1) n = forX (fun p => initField env (instantiate env N) p.2) o.fields := by
      show (match PyEnv.get env n with | some (.complex o) => _ | _ => _) = _
      rw [ho]
    rw [hu]
    rw [← mapE_forX (f := fun f => do
        let v ← emptyValue (newInst T N) f
        let w ← f.accept T (newInst T N) v
        .ok (f.name, w)) (l := (T (env.idOf n)).fields)]
    · show Except.map _ (Except.bind _ _) = _
      cases mapE _ (T (env.idOf n)).fields <;> rfl
    · refine hcls.1.imp ?_
      intro p f hf
      exact initField_initOf hT ih hf

theorem forX_ok {α : Type} {f : α → Except Exn Unit} {l : List α} (h : ∀ a ∈ l, f a = .ok ()) : forX f l = .ok () := by
  induction l with
  | nil => rfl
  | cons a l ih =>
    unfold forX
    rw [h a List.mem_cons_self]
    exact ih fun b hb => h b (List.mem_cons_of_mem _ hb)

/-- The field a descriptor with the type `t` is. -/
def FieldObj.shape (n : Str) (t : FType) : FieldObj → Field
  | .attribute _ tag use => { name := n, kind := .attribute, type := t, tagname := tag, required := use = py"required" }
  | .ref _ => { name := n, kind := .ref, type := t }
  | .element _ tag m nillable =>
    { name := n, kind := .element, type := t, tagname := tag, nillable := nillable, required := m ≠ 0 }
  | .list _ tag m b nillable =>
    { name := n, kind := .list, type := t, tagname := some tag, nillable := nillable, minOccurs := m, maxOccurs := some b }

theorem field_eq {n : Str} {o : FieldObj} {f : Field} (h : FieldObj.field compile iso env n o = some f) :
    f = o.shape n f.type := by
  cases o with
  | «attribute» u tag use =>
    simp only [FieldObj.field] at h
    cases hu : u.ftype compile iso env with
    | none => rw [hu] at h; cases h
    | some t => rw [hu] at h; rw [← Option.some.inj h]; rfl
  | ref u =>
    simp only [FieldObj.field] at h
    cases hu : u.ftype compile iso env with
    | none => rw [hu] at h; cases h
    | some t => rw [hu] at h; rw [← Option.some.inj h]; rfl
  | element u tag m nl =>
    simp only [FieldObj.field] at h
    cases hu : u.ftype compile iso env with
    | none => rw [hu] at h; cases h
    | some t => rw [hu] at h; rw [← Option.some.inj h]; rfl
  | list u tag m b nl =>
    simp only [FieldObj.field] at h
    cases hu : u.ftype compile iso env with
    | none => rw [hu] at h; cases h
    | some t => rw [hu] at h; rw [← Option.some.inj h]; rfl

/-- Evaluating the types of the fields is enough to create an instance, unless a type accepts nothing. -/
theorem newInst_of_forced (hT : moduleTable compile iso env s = some T) {limit : Nat} {n : Str} {o : ComplexObj}
    (ho : env.get n = some (.complex o)) (hf : forceClass env limit n = .ok ())
    (hany : ∀ f ∈ (T (env.idOf n)).fields, f.type ≠ .any ∧ (f.kind = .ref → ∃ c, f.type = .complex c)) :
    ∃ v, newInst T (limit + 1) (env.idOf n) = .ok v := by
  have hcls := cls_parts (moduleTable_class hT ho)
  have key : instantiate env (limit + 1) n = .ok () := by
    show (match PyEnv.get env n with | some (.complex o) => _ | _ => _) = _
    rw [ho]
    refine forX_ok ?_
    intro p hp
    obtain ⟨f, hfm, hpf⟩ := hcls.1.mem_left hp
    rw [← initField_initOf hT (fun h => newInst_instantiate hT limit h) hpf]
    obtain ⟨-, hd, -, hty⟩ := field_name hpf
    have hev : evaluateUse env limit p.2.type = .ok () := by
      unfold forceClass at hf
      rw [ho] at hf
      exact forX_mem hf p hp
    have hcx : ∀ c, f.type = .complex c → ((T c).header = false ∧ isSub T c c = true) ∧ (newInst T limit c).map (fun _ => ()) = .ok () := by
      intro c hc
      rcases ftype_cases hty with ⟨n, o, h1, ho, h⟩ | ⟨_, _, _, h⟩ | ⟨_, _, _, _, _, _, _, h⟩ | ⟨_, _, _, h⟩ | ⟨_, _, _, _, _, _, h⟩ <;>
        rw [hc] at h
      · cases h
        have := cls_parts (moduleTable_class hT ho)
        refine ⟨⟨this.2.2.2.2.2, ?_⟩, ?_⟩
        · unfold isSub
          rw [this.2.1]
          simp
        · rw [newInst_instantiate hT limit ho]
          unfold evaluateUse at hev
          rw [h1] at hev
          exact hev
      all_goals cases h
    have hk : f.kind = .attribute ∨ f.kind = .element ∨ f.kind = .ref ∨ f.kind = .list := by
      rw [field_eq hpf]
      cases p.2 <;> simp [FieldObj.shape]
    obtain ⟨ha, hr⟩ := hany f hfm
    have hitem : f.kind = .attribute ∨ f.kind = .element → (initOf T (newInst T limit) f).map (fun _ => ()) = .ok () := by
      intro hk
      rw [initOf_item hk hd fun c hc => (hcx c hc).1.1]
      cases ht : f.type with
      | simple t => rfl
      | complex c => exact (hcx c ht).2
      | any => exact absurd ht ha
    rcases hk with hk | hk | hk | hk
    · exact hitem (.inl hk)
    · exact hitem (.inr hk)
    · rw [initOf_ref hk fun c hc => ⟨(hcx c hc).1.1, (hcx c hc).1.2, fun v hv => newInst_shape hv⟩]
      obtain ⟨c, hc⟩ := hr hk
      rw [hc]
      exact (hcx c hc).2
    · unfold initOf emptyValue Field.accept
      rw [hk]; rfl
  rw [← newInst_instantiate hT (limit + 1) ho] at key
  cases hn : newInst T (limit + 1) (env.idOf n) with
  | error e => rw [hn] at key; cases key
  | ok v => exact ⟨v, rfl⟩

end

end Soapfish
