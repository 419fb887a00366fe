import Verif.RunFields
import Verif.Spec.Documents
import Verif.ComplexLemmas
/-
The classes of imported modules as a class table.
-/
namespace Soapfish

/-! ### Environments -/

/-- Complex type classes have the name they are bound to, and no field name twice. -/
def EnvOk (env : PyEnv) : Prop := ∀ n o, (n, ClassObj.complex o) ∈ env → o.name = n ∧ (o.fields.map (·.1)).Nodup

theorem env_get_mem {env : PyEnv} {n : Str} {x : ClassObj} (h : env.get n = some x) : (n, x) ∈ env := by
  unfold PyEnv.get at h
  cases hf : env.find? (fun p => p.1 = n) with
  | none => rw [hf] at h; cases h
  | some p =>
    rw [hf] at h
    have h1 := List.mem_of_find?_eq_some hf
    have h2 : p.1 = n := by have := List.find?_some hf; exact of_decide_eq_true this
    rw [show (n, x) = p from by rw [← h2, ← Option.some.inj h]]
    exact h1

theorem execFields_nodup {env : PyEnv} {l : List PyField} : ∀ {done r : List (Str × FieldObj)},
    execFields env done l = .ok r → (done.map (·.1)).Nodup → (r.map (·.1)).Nodup := by
  induction l with
  | nil => intro done r h hd; rw [← Except.ok.inj h]; exact hd
  | cons f l ih =>
    intro done r h hd
    unfold execFields at h
    cases hf : execField env (done.map (·.1)) f with
    | error e => rw [hf] at h; cases h
    | ok o =>
      rw [hf] at h
      refine ih h ?_
      rw [List.map_append, List.nodup_append]
      refine ⟨hd.sublist (List.Sublist.map _ List.filter_sublist), by simp, ?_⟩
      intro a ha b hb hab
      obtain ⟨p, hp, rfl⟩ := List.mem_map.1 ha
      have hb' : b = f.target := by simpa using hb
      have := of_decide_eq_true (List.mem_filter.1 hp).2
      exact this (hab.trans hb')

theorem execCreate_nodup {fields r : List (Str × FieldObj)} {c : Option (List Str)} (h : execCreate fields c = .ok r)
    (hd : (fields.map (·.1)).Nodup) : (r.map (·.1)).Nodup := by
  cases c with
  | none => rw [← Except.ok.inj h]; exact hd
  | some l =>
    unfold execCreate at h
    simp only at h
    split at h
    · cases h
    · rw [← Except.ok.inj h]
      exact hd.sublist (List.Sublist.map _ List.filter_sublist)

theorem inheritFields_nodup {base own : List (Str × FieldObj)} {c : Bool} (hb : (base.map (·.1)).Nodup)
    (ho : (own.map (·.1)).Nodup) : ((inheritFields base own c).map (·.1)).Nodup := by
  unfold inheritFields
  rw [List.map_append, List.nodup_append]
  refine ⟨hb.sublist (List.Sublist.map _ List.filter_sublist), ho, ?_⟩
  intro a ha b hb' hab
  obtain ⟨p, hp, rfl⟩ := List.mem_map.1 ha
  have := (of_decide_eq_true (List.mem_filter.1 hp).2).1
  exact this (hab ▸ hb')

theorem xsdAttr_fields {n : Str} {o : ComplexObj} (h : xsdAttr n = .ok (.complex o)) : o.fields = [] := by
  unfold xsdAttr at h
  split at h
  · cases h
  · split at h
    · cases Except.ok.inj h; rfl
    · split at h <;> cases h

theorem execClass_ok {env env' : PyEnv} {c : PyClassDef} (h : execClass env c = .ok env') (he : EnvOk env) : EnvOk env' := by
  have hbase : ∀ o, baseClass env c.base = .ok (.complex o) → (o.fields.map (·.1)).Nodup := by
    intro o hb
    cases hr : c.base with
    | xsd n => rw [hr] at hb; rw [xsdAttr_fields hb]; exact List.nodup_nil
    | name n =>
      rw [hr] at hb
      unfold baseClass at hb
      simp only at hb
      split at hb
      · next x hx =>
        have := Except.ok.inj hb
        subst this
        exact (he n o (env_get_mem hx)).2
      · cases hb
    | path n => rw [hr] at hb; cases hb
  unfold execClass at h
  cases hb : baseClass env c.base with
  | error e => rw [hb] at h; cases h
  | ok o =>
    rw [hb] at h
    cases o with
    | simple o =>
      simp only [bind, Except.bind] at h
      cases h1 : evalEnumeration c.enumeration with
      | error e => rw [h1] at h; cases h
      | ok a =>
        cases h2 : evalFacets c.facets with
        | error e => rw [h1, h2] at h; cases h
        | ok b =>
          cases h3 : execFields env [] c.fields with
          | error e => rw [h1, h2, h3] at h; cases h
          | ok f =>
            cases h4 : execCreate f c.create with
            | error e => rw [h1, h2, h3] at h; simp only [h4] at h; cases h
            | ok g =>
              rw [h1, h2, h3] at h
              simp only [h4] at h
              rw [← Except.ok.inj h]
              intro n o' hm
              rcases List.mem_cons.1 hm with hm | hm
              · cases (Prod.mk.inj hm).2
              · exact he n o' hm
    | complex o =>
      simp only [bind, Except.bind] at h
      cases h1 : evalEnumeration c.enumeration with
      | error e => rw [h1] at h; cases h
      | ok a =>
        cases h2 : evalFacets c.facets with
        | error e => rw [h1, h2] at h; cases h
        | ok b =>
          cases h3 : execFields env [] c.fields with
          | error e => rw [h1, h2, h3] at h; cases h
          | ok f =>
            cases h4 : execCreate f c.create with
            | error e => rw [h1, h2, h3] at h; simp only [h4] at h; cases h
            | ok g =>
              rw [h1, h2, h3] at h
              simp only [h4] at h
              rw [← Except.ok.inj h]
              intro n o' hm
              rcases List.mem_cons.1 hm with hm | hm
              · obtain ⟨rfl, hx⟩ := Prod.mk.inj hm
                cases hx
                exact ⟨rfl, inheritFields_nodup (hbase o hb) (execCreate_nodup h4 (execFields_nodup h3 List.nodup_nil))⟩
              · exact he n o' hm

theorem execClasses_ok {l : List PyClassDef} : ∀ {env env' : PyEnv}, execClasses env l = .ok env' → EnvOk env → EnvOk env' := by
  induction l with
  | nil => intro env env' h he; rw [← Except.ok.inj h]; exact he
  | cons c l ih =>
    intro env env' h he
    obtain ⟨e, h1, h2⟩ := execClasses_cons h
    exact ih h2 (execClass_ok h1 he)

theorem envOk_nil : EnvOk [] := fun _ _ h => absurd h List.not_mem_nil

/-! ### Modules -/

/-- What a successful import has done. -/
structure Imported (m : PyModule) (limit : Nat) (env : PyEnv) (s : GSchema) : Prop where
  check : checkModule m = .ok ()
  classes : execClasses [] m.classes = .ok env
  forced : ∀ n ∈ m.schema.complexTypes, forceClass env limit n = .ok ()
  nspace : textValue '\'' m.schema.targetNamespace = some s.targetNamespace
  form : ∃ f, textValue '\'' m.schema.elementFormDefault = some f ∧ s.qualified = decide (f = py"qualified")

theorem literal_ok {o : Option Str} {s : Str} (h : literal o = .ok s) : o = some s := by
  cases o with
  | none => cases h
  | some t => exact congrArg some (Except.ok.inj h)

theorem raisedE_ok {α : Type} {x : Except Exn α} {a : α} (h : raisedE x = .ok a) : x = .ok a := by
  cases x with
  | error e => cases h
  | ok b => exact congrArg Except.ok (Except.ok.inj h)

theorem execModule_imported {vars : SchemaVars} {m : PyModule} {limit : Nat} {env : PyEnv} {s : GSchema}
    (h : execModule vars [] limit m = .ok (env, s)) : Imported m limit env s := by
  unfold execModule at h
  cases h1 : checkModule m with
  | error e => rw [h1] at h; cases h
  | ok u =>
    cases h2 : execClasses [] m.classes with
    | error e => rw [h1, h2] at h; cases h
    | ok env' =>
      rw [h1, h2] at h
      simp only [bind, Except.bind] at h
      cases h3 : execSchema vars env' limit m.schema with
      | error e => rw [h3] at h; cases h
      | ok s' =>
        rw [h3] at h
        obtain ⟨rfl, rfl⟩ := Prod.mk.inj (Except.ok.inj h)
        unfold execSchema at h3
        simp only [bind, Except.bind] at h3
        iterate 2
          split at h3
          · cases h3
        split at h3
        · cases h3
        rename_i hns
        split at h3
        · cases h3
        rename_i hform
        iterate 5
          split at h3
          · cases h3
        split at h3
        · cases h3
        rename_i hforce
        iterate 3
          split at h3
          · cases h3
        iterate 3
          split at h3
          · cases h3
        have hs := Except.ok.inj h3
        refine ⟨h1, h2, forX_mem (raisedE_ok hforce), ?_, ?_⟩
        · rw [← hs]; exact literal_ok hns
        · exact ⟨_, literal_ok hform, by rw [← hs]⟩

/-! ### Class tables -/

theorem mapO_get {α β : Type} {f : α → Option β} {l : List α} : ∀ {r : List β}, mapO f l = some r → ∀ (i : Nat) a, l[i]? = some a →
    ∃ b, f a = some b ∧ r[i]? = some b := by
  induction l with
  | nil => intro r _ i a h; simp at h
  | cons x l ih =>
    intro r h i a ha
    unfold mapO at h
    cases hx : f x with
    | none => rw [hx] at h; cases h
    | some b =>
      cases hl : mapO f l with
      | none => rw [hx, hl] at h; cases h
      | some bs =>
        rw [hx, hl] at h
        have hr := Option.some.inj h
        subst hr
        cases i with
        | zero =>
          have : x = a := by simpa using ha
          subst this
          exact ⟨b, hx, rfl⟩
        | succ i =>
          obtain ⟨c, h1, h2⟩ := ih hl i a (by simpa using ha)
          exact ⟨c, h1, by simpa using h2⟩

theorem mapO_length {α β : Type} {f : α → Option β} {l : List α} : ∀ {r : List β}, mapO f l = some r → r.length = l.length := by
  induction l with
  | nil => intro r h; rw [← Option.some.inj h]; rfl
  | cons x l ih =>
    intro r h
    unfold mapO at h
    cases hx : f x with
    | none => rw [hx] at h; cases h
    | some b =>
      cases hl : mapO f l with
      | none => rw [hx, hl] at h; cases h
      | some bs =>
        rw [hx, hl] at h
        rw [← Option.some.inj h, List.length_cons, List.length_cons, ih hl]

theorem mapO_all2 {α β : Type} {f : α → Option β} {l : List α} : ∀ {r : List β}, mapO f l = some r →
    All2 (fun a b => f a = some b) l r := by
  induction l with
  | nil => intro r h; rw [← Option.some.inj h]; exact .nil
  | cons x l ih =>
    intro r h
    unfold mapO at h
    cases hx : f x with
    | none => rw [hx] at h; cases h
    | some b =>
      cases hl : mapO f l with
      | none => rw [hx, hl] at h; cases h
      | some bs =>
        rw [hx, hl] at h
        rw [← Option.some.inj h]
        exact .cons hx (ih hl)

theorem idOf_get {env : PyEnv} {n : Str} {x : ClassObj} (h : env.get n = some x) : env[env.idOf n]? = some (n, x) := by
  unfold PyEnv.get at h
  unfold PyEnv.idOf
  induction env with
  | nil => cases h
  | cons p env ih =>
    rw [List.find?_cons] at h
    rw [List.findIdx_cons]
    by_cases hp : p.1 = n
    · rw [decide_eq_true hp] at h ⊢
      have := Option.some.inj h
      rw [cond_true]
      subst this
      rw [← hp]; rfl
    · rw [decide_eq_false hp] at h ⊢
      simpa using ih h

section
variable {compile : Str → Pattern} {iso : Iso} {env : PyEnv} {s : GSchema} {T : Table}

/-- The classes of the table are the classes of the module. -/
theorem moduleTable_at (hT : moduleTable compile iso env s = some T) (i : Nat) :
    (∃ p, env[i]? = some p ∧ entryCls compile iso env ⟨some s.targetNamespace, s.qualified⟩ i p = some (T i)) ∨
    T i = noClass i := by
  unfold moduleTable at hT
  cases hl : envClasses compile iso env ⟨some s.targetNamespace, s.qualified⟩ with
  | none => rw [hl] at hT; cases hT
  | some l =>
    rw [hl] at hT
    have hTl : classTable l = T := Option.some.inj hT
    subst hTl
    cases hp : env[i]? with
    | none =>
      refine .inr ?_
      unfold classTable
      have h1 : env.length ≤ i := List.getElem?_eq_none_iff.1 hp
      have h2 : l.length = env.length := by rw [mapO_length hl, List.length_zipIdx]
      rw [List.getD_eq_getElem?_getD, List.getElem?_eq_none (by omega)]
      rfl
    | some p =>
      refine .inl ⟨p, rfl, ?_⟩
      obtain ⟨c, h1, h2⟩ := mapO_get hl i (p, i) (by simp [List.getElem?_zipIdx, hp])
      rw [h1]
      unfold classTable
      rw [List.getD_eq_getElem?_getD, h2]
      rfl

theorem moduleTable_class (hT : moduleTable compile iso env s = some T) {n : Str} {o : ComplexObj}
    (h : env.get n = some (.complex o)) :
    o.cls compile iso env ⟨some s.targetNamespace, s.qualified⟩ (env.idOf n) = some (T (env.idOf n)) := by
  rcases moduleTable_at hT (env.idOf n) with ⟨p, h1, h2⟩ | h2
  · rw [idOf_get h] at h1
    rw [← Option.some.inj h1] at h2
    exact h2
  · unfold moduleTable at hT
    cases hl : envClasses compile iso env ⟨some s.targetNamespace, s.qualified⟩ with
    | none => rw [hl] at hT; cases hT
    | some l =>
      rw [hl] at hT
      have hTl : classTable l = T := Option.some.inj hT
      subst hTl
      obtain ⟨c, h3, h4⟩ := mapO_get hl (env.idOf n) ((n, .complex o), env.idOf n) (by simp [List.getElem?_zipIdx, idOf_get h])
      unfold classTable
      rw [List.getD_eq_getElem?_getD, h4]
      exact h3

theorem cls_parts {i : ClsId} {o : ComplexObj} {info : SchemaInfo} {c : Cls} (h : o.cls compile iso env info i = some c) :
    All2 (fun p f => FieldObj.field compile iso env p.1 p.2 = some f) o.fields c.fields ∧
    c.mro = i :: o.bases.map env.idOf ∧ c.choice = decide (o.indicator = .choice) ∧ c.schema = some info ∧
    c.isGroup = o.group ∧ c.header = false := by
  unfold ComplexObj.cls at h
  cases hf : mapO (fun p : Str × FieldObj => FieldObj.field compile iso env p.1 p.2) o.fields with
  | none => rw [hf] at h; cases h
  | some fs =>
    rw [hf] at h
    have := Option.some.inj h
    subst this
    exact ⟨mapO_all2 hf, rfl, rfl, rfl, rfl, rfl⟩

theorem field_name {n : Str} {o : FieldObj} {f : Field} (h : FieldObj.field compile iso env n o = some f) :
    f.name = n ∧ f.default = Val.none ∧ f.nspace = none ∧ o.type.ftype compile iso env = some f.type := by
  cases o with
  | «attribute» u tag use =>
    unfold FieldObj.field at h
    show _ ∧ _ ∧ _ ∧ u.ftype compile iso env = _
    cases hu : u.ftype compile iso env with
    | none => simp only [hu] at h; cases h
    | some t => simp only [hu] at h; cases Option.some.inj h; exact ⟨rfl, rfl, rfl, rfl⟩
  | ref u =>
    unfold FieldObj.field at h
    show _ ∧ _ ∧ _ ∧ u.ftype compile iso env = _
    cases hu : u.ftype compile iso env with
    | none => simp only [hu] at h; cases h
    | some t => simp only [hu] at h; cases Option.some.inj h; exact ⟨rfl, rfl, rfl, rfl⟩
  | element u tag m nl =>
    unfold FieldObj.field at h
    show _ ∧ _ ∧ _ ∧ u.ftype compile iso env = _
    cases hu : u.ftype compile iso env with
    | none => simp only [hu] at h; cases h
    | some t => simp only [hu] at h; cases Option.some.inj h; exact ⟨rfl, rfl, rfl, rfl⟩
  | list u tag m b nl =>
    unfold FieldObj.field at h
    show _ ∧ _ ∧ _ ∧ u.ftype compile iso env = _
    cases hu : u.ftype compile iso env with
    | none => simp only [hu] at h; cases h
    | some t => simp only [hu] at h; cases Option.some.inj h; exact ⟨rfl, rfl, rfl, rfl⟩

theorem field_names {os : List (Str × FieldObj)} {fs : List Field}
    (h : All2 (fun p f => FieldObj.field compile iso env p.1 p.2 = some f) os fs) : fs.map (·.name) = os.map (·.1) := by
  induction h with
  | nil => rfl
  | cons h _ ih => rw [List.map_cons, List.map_cons, ih, (field_name h).1]

/-- The table of a module is one of Python classes. -/
theorem moduleTable_sane (hT : moduleTable compile iso env s = some T) (he : EnvOk env) : T.Sane := by
  have key : ∀ i, T i = noClass i ∨ ∃ n o, (n, ClassObj.complex o) ∈ env ∧
      o.cls compile iso env ⟨some s.targetNamespace, s.qualified⟩ i = some (T i) := by
    intro i
    rcases moduleTable_at hT i with ⟨p, h1, h2⟩ | h
    · obtain ⟨n, x⟩ := p
      cases x with
      | complex o => exact .inr ⟨n, o, List.mem_of_getElem? h1, h2⟩
      | simple o => exact .inl (Option.some.inj h2).symm
    · exact .inl h
  refine ⟨fun i => ?_, fun i => ?_, fun i f c hf ht => ?_⟩
  · rcases key i with h | ⟨n, o, h1, h2⟩
    · rw [h]; exact List.nodup_nil
    · rw [field_names (cls_parts h2).1]
      exact (he n o h1).2
  · rcases key i with h | ⟨n, o, h1, h2⟩
    · rw [h]; exact List.mem_cons_self ..
    · rw [(cls_parts h2).2.1]; exact List.mem_cons_self ..
  · refine .inr ?_
    rcases key i with h | ⟨n, o, h1, h2⟩
    · rw [h] at hf; exact absurd hf List.not_mem_nil
    · have : ∀ {os : List (Str × FieldObj)} {fs : List Field},
          All2 (fun p f => FieldObj.field compile iso env p.1 p.2 = some f) os fs → ∀ f ∈ fs, f.default = Val.none := by
        intro os fs h
        induction h with
        | nil => intro f hf; exact absurd hf List.not_mem_nil
        | cons h _ ih =>
          intro f hf
          rcases List.mem_cons.1 hf with rfl | hf
          · exact (field_name h).2.1
          · exact ih f hf
      rw [this (cls_parts h2).1 f hf]
      exact .none

end

end Soapfish
