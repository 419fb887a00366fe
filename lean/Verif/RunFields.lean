import Verif.RunTypesLemmas
import Verif.RunTable
/-
The fields of the classes of imported modules.
-/
namespace Soapfish

/-! ### Sequences of steps that succeed -/

theorem mapE_mem_left {α β : Type} {f : α → Except Exn β} {l : List α} {r : List β} (h : mapE f l = .ok r) :
    ∀ a ∈ l, ∃ b ∈ r, f a = .ok b := by
  induction l generalizing r with
  | nil => intro a ha; exact absurd ha List.not_mem_nil
  | cons x l ih =>
    intro a ha
    unfold mapE at h
    cases hx : f x with
    | error e => rw [hx] at h; cases h
    | ok b =>
      rw [hx] at h
      cases hl : mapE f l with
      | error e => simp only [hl, bind, Except.bind] at h; cases h
      | ok bs =>
        simp only [hl, bind, Except.bind] at h
        have hr := Except.ok.inj h
        subst hr
        rcases List.mem_cons.1 ha with rfl | ha
        · exact ⟨b, List.mem_cons_self .., hx⟩
        · obtain ⟨y, hy, h2⟩ := ih hl a ha
          exact ⟨y, List.mem_cons_of_mem _ hy, h2⟩

theorem mapE_all2 {α β : Type} {f : α → Except Exn β} {l : List α} : ∀ {r : List β}, mapE f l = .ok r →
    All2 (fun a b => f a = .ok b) l r := by
  induction l with
  | nil => intro r h; rw [← Except.ok.inj h]; exact .nil
  | cons x l ih =>
    intro r h
    unfold mapE at h
    cases hx : f x with
    | error e => rw [hx] at h; cases h
    | ok b =>
      rw [hx] at h
      cases hl : mapE f l with
      | error e => simp only [hl, bind, Except.bind] at h; cases h
      | ok bs =>
        simp only [hl, bind, Except.bind] at h
        rw [← Except.ok.inj h]
        exact .cons hx (ih hl)

theorem forE_mem {α : Type} {f : α → Except ImportErr Unit} {l : List α} (h : forE f l = .ok ()) :
    ∀ a ∈ l, f a = .ok () := by
  induction l with
  | nil => intro a ha; exact absurd ha List.not_mem_nil
  | cons x l ih =>
    intro a ha
    unfold forE at h
    cases hx : f x with
    | error e => rw [hx] at h; cases h
    | ok u =>
      rw [hx] at h
      rcases List.mem_cons.1 ha with rfl | ha
      · exact hx
      · exact ih h a ha

theorem forX_mem {α : Type} {f : α → Except Exn Unit} {l : List α} (h : forX f l = .ok ()) :
    ∀ a ∈ l, f a = .ok () := by
  induction l with
  | nil => intro a ha; exact absurd ha List.not_mem_nil
  | cons x l ih =>
    intro a ha
    unfold forX at h
    cases hx : f x with
    | error e => rw [hx] at h; cases h
    | ok u =>
      rw [hx] at h
      rcases List.mem_cons.1 ha with rfl | ha
      · exact hx
      · exact ih h a ha

/-! ### The order of complex types -/

theorem listInsert_perm {α : Type} {lt : α → α → Except Exn Bool} {x : α} {l : List α} : ∀ {r : List α},
    listInsert lt x l = .ok r → r.Perm (x :: l) := by
  induction l with
  | nil => intro r h; rw [← Except.ok.inj h]
  | cons y l ih =>
    intro r h
    unfold listInsert at h
    cases hc : lt x y with
    | error e => rw [hc] at h; cases h
    | ok c =>
      rw [hc] at h
      simp only [Except.bind] at h
      split at h
      · rw [← Except.ok.inj h]
      · cases hl : listInsert lt x l with
        | error e => rw [hl] at h; cases h
        | ok s =>
          rw [hl] at h
          rw [← Except.ok.inj h]
          exact ((ih hl).cons y).trans (List.Perm.swap ..)

theorem listSort_perm {α : Type} {lt : α → α → Except Exn Bool} {l : List α} : ∀ {acc r : List α},
    listSort lt acc l = .ok r → r.Perm (acc ++ l) := by
  induction l with
  | nil => intro acc r h; rw [← Except.ok.inj h, List.append_nil]
  | cons x l ih =>
    intro acc r h
    unfold listSort at h
    cases hx : listInsert lt x acc with
    | error e => rw [hx] at h; cases h
    | ok s =>
      rw [hx] at h
      refine (ih h).trans ?_
      refine ((listInsert_perm hx).append_right l).trans ?_
      exact List.perm_middle.symm

theorem reorderComplex_mem {n : Nat} {l r : List DComplex} (h : reorderComplex n l = .ok r) : ∀ ct, ct ∈ l ↔ ct ∈ r := by
  unfold reorderComplex at h
  cases ht : reorderTypes n (l.zipIdx.map fun p => p.1.decl p.2) with
  | error e => rw [ht] at h; cases h
  | ok ds =>
    rw [ht] at h
    have hr := Except.ok.inj h
    subst hr
    have hp : ds.Perm (l.zipIdx.map fun p => p.1.decl p.2) := by
      unfold reorderTypes at ht
      cases hw : weighTypes 0 none [] (l.zipIdx.map fun p => p.1.decl p.2) with
      | error e => rw [hw] at ht; cases ht
      | ok w => rw [hw] at ht; exact listSort_perm ht
    have hdoc : ∀ p : DComplex × Nat, (p.1.decl p.2).doc = p.2 := fun _ => rfl
    intro ct
    rw [List.mem_filterMap]
    constructor
    · intro hc
      obtain ⟨i, hi⟩ := List.mem_iff_getElem?.1 hc
      have hz : (ct, i) ∈ l.zipIdx := List.mem_zipIdx_iff_getElem?.2 hi
      exact ⟨ct.decl i, hp.mem_iff.2 (List.mem_map.2 ⟨(ct, i), hz, rfl⟩), hi⟩
    · rintro ⟨t, _, h2⟩
      exact List.mem_of_getElem? h2

/-! ### The code for a complex type -/

section
variable {prefixes : List (Option Str)}

theorem capitalizeO_some {n : Str} {c : Str} (h : capitalizeO (some n) = .ok c) : c = capName n := by
  cases n with
  | nil => cases h
  | cons a as => exact (Except.ok.inj h).symm

/-- The code for a document contains the class for each of its complex types, and lists it. -/
theorem schemaToPy_complex {digest : Str → Str} {n : Nat} {parent : Option Str} {d : DSchema} {m : PyModule}
    (h : schemaToPy prefixes digest n parent d = .ok m) {ct : DComplex} (hs : ct ∈ d.complexTypes) :
    ∃ k c N, complexClass prefixes k ct.name ct = .ok c ∧ c ∈ m.classes ∧ capitalizeO ct.name = .ok N ∧
      N ∈ m.schema.complexTypes := by
  unfold schemaToPy at h
  cases h1 : reorderComplex n d.complexTypes with
  | error e => rw [h1] at h; cases h
  | ok cts =>
    rw [h1] at h
    have hs' : ct ∈ cts := (reorderComplex_mem h1 ct).1 hs
    simp only [bind, Except.bind] at h
    unfold schemaCode at h
    simp only [bind, Except.bind] at h
    cases h2 : collect (simpleClasses prefixes) [] d.simpleTypes with
    | error e => rw [h2] at h; cases h
    | ok r =>
      simp only [h2] at h
      cases h3 : mapE (attributeGroupClass prefixes r.2) d.attributeGroups with
      | error e => simp only [h3] at h; cases h
      | ok ag =>
        simp only [h3] at h
        cases h4 : mapE (groupClass prefixes r.2) d.groups with
        | error e => simp only [h4] at h; cases h
        | ok gs =>
          simp only [h4] at h
          cases h5 : collect (complexClasses prefixes) r.2 cts with
          | error e => simp only [h5] at h; cases h
          | ok cs =>
            simp only [h5] at h
            cases h6 : mapE (topClasses prefixes cs.2) d.elements with
            | error e => simp only [h6] at h; cases h
            | ok ts =>
              simp only [h6] at h
              split at h
              · cases h
              · rename_i hm
                split at hm
                · cases hm
                · rename_i hst
                  have hr2 := Except.ok.inj hm
                  have hr := Except.ok.inj h
                  obtain ⟨k, cl, k', hc, hin⟩ := collect_mem h5 ct hs'
                  unfold complexClasses at hc
                  cases hcc : complexClass prefixes k ct.name ct with
                  | error e => rw [hcc] at hc; cases hc
                  | ok c =>
                    simp only [hcc, bind, Except.bind] at hc
                    cases hn : capitalizeO ct.name with
                    | error e => rw [hn] at hc; cases hc
                    | ok N =>
                      rw [hn] at hc
                      have hcl := (Prod.mk.inj (Except.ok.inj hc)).1
                      refine ⟨k, c, N, hcc, ?_, rfl, ?_⟩
                      · rw [← hr, ← hr2]
                        simp only [List.mem_append]
                        exact .inl (.inr (hin c (hcl ▸ List.mem_cons_self ..)))
                      · rw [← hr, ← hr2]
                        unfold schemaStatement at hst
                        simp only [bind, Except.bind] at hst
                        split at hst
                        · cases hst
                        split at hst
                        · cases hst
                        split at hst
                        · cases hst
                        split at hst
                        · cases hst
                        split at hst
                        · cases hst
                        split at hst
                        · cases hst
                        split at hst
                        · cases hst
                        rename_i hcn
                        split at hst
                        · cases hst
                        rw [← Except.ok.inj hst]
                        obtain ⟨b, hb, he⟩ := mapE_mem_left hcn ct hs'
                        rw [hn] at he
                        exact Except.ok.inj he ▸ hb

theorem complexBody_eq {known : List Str} {name : Str} {base : PyRef} {c : DContent} {cls : PyClassDef}
    (h : complexBody prefixes known name base c = .ok cls) :
    cls.name = name ∧ cls.base = base ∧ cls.indicator = (contentElements c).1 ∧ cls.create = c.sequence.map createParams ∧
    cls.enumeration = none ∧ cls.facets = [] ∧
    ∃ as gs es, All2 (fun a f => attributeField prefixes known a = .ok f) c.attributes as ∧
      All2 (fun g f => attributeGroupRef prefixes known g = .ok f) c.attributeGroups gs ∧
      All2 (fun e fs => elementFields prefixes known e = .ok fs) (contentElements c).2 es ∧
      cls.fields = as ++ gs ++ es.flatten := by
  unfold complexBody at h
  cases h1 : mapE (attributeField prefixes known) c.attributes with
  | error e => simp only [h1, bind, Except.bind] at h; cases h
  | ok as =>
    cases h2 : mapE (attributeGroupRef prefixes known) c.attributeGroups with
    | error e => simp only [h1, h2, bind, Except.bind] at h; cases h
    | ok gs =>
      cases h3 : mapE (elementFields prefixes known) (contentElements c).2 with
      | error e => simp only [h1, h2, h3, bind, Except.bind] at h; cases h
      | ok es =>
        simp only [h1, h2, h3, bind, Except.bind] at h
        have hr := Except.ok.inj h
        subst hr
        exact ⟨rfl, rfl, rfl, rfl, rfl, rfl, as, gs, es, mapE_all2 h1, mapE_all2 h2, mapE_all2 h3, rfl⟩

theorem complexClass_plain {known : List Str} {n : Str} {ct : DComplex} {cls : PyClassDef} (hc : ct.complexContent = none)
    (h : complexClass prefixes known (some n) ct = .ok cls) :
    complexBody prefixes known (capName n) (.xsd py"ComplexType") ct.content = .ok cls := by
  unfold complexClass at h
  rw [hc] at h
  simp only [bind, Except.bind] at h
  cases hn : capitalizeO (some n) with
  | error e => rw [hn] at h; cases h
  | ok c =>
    rw [hn] at h
    rw [← capitalizeO_some hn]
    exact h

theorem complexClass_extension {known : List Str} {n q : Str} {c : DContent} {ct : DComplex} {cls : PyClassDef}
    (hc : ct.complexContent = some { extension := some (some q, c) }) (hn : ct.name = some n)
    (h : complexClass prefixes known (some n) ct = .ok cls) :
    ∃ b, pyRef prefixes known (.derived (some q)) = .ok b ∧ complexBody prefixes known (capName n) b c = .ok cls := by
  unfold complexClass at h
  rw [hc] at h
  simp only [bind, Except.bind, hn] at h
  cases hn' : capitalizeO (some n) with
  | error e => rw [hn'] at h; cases h
  | ok m =>
    rw [hn'] at h
    simp only at h
    rw [← capitalizeO_some hn']
    cases hb : pyRef prefixes known (.derived (some q)) with
    | error e =>
      rw [show pyRef prefixes known (baseSource ((some (some q, c)).map (·.1))) = .error e from hb] at h
      cases h
    | ok b =>
      rw [show pyRef prefixes known (baseSource ((some (some q, c)).map (·.1))) = .ok b from hb] at h
      exact ⟨b, rfl, h⟩

end

/-! ### Executing class bodies -/

/-- Field by field, if no name occurs twice. -/
theorem execFields_all2 {env : PyEnv} {l : List PyField} : ∀ {done r : List (Str × FieldObj)},
    execFields env done l = .ok r → (done.map (·.1) ++ l.map PyField.target).Nodup →
    ∃ os, r = done ++ os ∧ All2 (fun f p => p.1 = f.target ∧ ∃ bound, py"xsd" ∉ bound ∧ execField env bound f = .ok p.2)
      l os := by
  induction l with
  | nil => intro done r h _; exact ⟨[], by rw [← Except.ok.inj h, List.append_nil], .nil⟩
  | cons f l ih =>
    intro done r h hd
    unfold execFields at h
    cases hf : execField env (done.map (·.1)) f with
    | error e => rw [hf] at h; cases h
    | ok o =>
      rw [hf] at h
      simp only [bind, Except.bind] at h
      rw [List.map_cons] at hd
      have hnot : f.target ∉ done.map (·.1) := by
        intro hm
        exact (List.nodup_append.1 hd).2.2 _ hm _ (List.mem_cons_self ..) rfl
      have hfil : done.filter (fun p => p.1 ≠ f.target) = done := by
        refine List.filter_eq_self.2 fun p hp => decide_eq_true ?_
        intro he
        exact hnot (List.mem_map.2 ⟨p, hp, he⟩)
      rw [hfil] at h
      obtain ⟨os, hr, hall⟩ := ih h (by simpa using hd)
      refine ⟨(f.target, o) :: os, by rw [hr]; simp, .cons ⟨rfl, done.map (·.1), ?_, hf⟩ hall⟩
      intro hx
      unfold execField at hf
      rw [if_pos hx] at hf
      cases hf

theorem all2_targets {env : PyEnv} {l : List PyField} {os : List (Str × FieldObj)}
    (h : All2 (fun f p => p.1 = f.target ∧ ∃ bound, py"xsd" ∉ bound ∧ execField env bound f = .ok p.2) l os) :
    os.map (·.1) = l.map PyField.target := by
  induction h with
  | nil => rfl
  | cons h _ ih => rw [List.map_cons, List.map_cons, ih, h.1]

theorem execCreate_plain {fields r : List (Str × FieldObj)} {c : Option (List Str)} (h : execCreate fields c = .ok r)
    (hn : py"create" ∉ fields.map (·.1)) : r = fields := by
  cases c with
  | none => exact (Except.ok.inj h).symm
  | some l =>
    unfold execCreate at h
    simp only at h
    split at h
    · cases h
    · rw [← Except.ok.inj h]
      refine List.filter_eq_self.2 fun p hp => decide_eq_true ?_
      intro he
      exact hn (List.mem_map.2 ⟨p, hp, he⟩)

/-- What a class statement on top of a complex type class leaves, if no name occurs twice. -/
theorem execClass_on {env env' : PyEnv} {c : PyClassDef} {o : ComplexObj} (hb : baseClass env c.base = .ok (.complex o))
    (hd : (o.fields.map (·.1) ++ c.fields.map PyField.target).Nodup)
    (hcr : py"create" ∉ o.fields.map (·.1) ++ c.fields.map PyField.target) (h : execClass env c = .ok env') :
    ∃ os, env' = (c.name, .complex { name := c.name, indicator := c.indicator.getD o.indicator, fields := o.fields ++ os
                                     bases := c.name :: o.bases, group := o.group }) :: env ∧
      All2 (fun f p => p.1 = f.target ∧ ∃ bound, py"xsd" ∉ bound ∧ execField env bound f = .ok p.2) c.fields os := by
  unfold execClass at h
  rw [hb] at h
  simp only [bind, Except.bind] at h
  have hd2 := List.nodup_append.1 hd
  cases h1 : evalEnumeration c.enumeration with
  | error e => rw [h1] at h; cases h
  | ok a =>
    cases h2 : evalFacets c.facets with
    | error e => rw [h1, h2] at h; cases h
    | ok b =>
      cases h3 : execFields env [] c.fields with
      | error e => rw [h1, h2, h3] at h; cases h
      | ok f =>
        obtain ⟨os, hf, hall⟩ := execFields_all2 h3 (by simpa using hd2.2.1)
        rw [List.nil_append] at hf
        subst hf
        cases h4 : execCreate f c.create with
        | error e => rw [h1, h2, h3] at h; simp only [h4] at h; cases h
        | ok g =>
          rw [h1, h2, h3] at h
          simp only [h4] at h
          have hg : g = f := execCreate_plain h4 (by
            rw [all2_targets hall]; exact fun hm => hcr (List.mem_append_right _ hm))
          subst hg
          have hin : inheritFields o.fields g c.create.isSome = o.fields ++ g := by
            unfold inheritFields
            congr 1
            refine List.filter_eq_self.2 fun p hp => decide_eq_true ⟨fun hm => ?_, fun hm => ?_⟩
            · rw [all2_targets hall] at hm
              exact hd2.2.2 _ (List.mem_map.2 ⟨p, hp, rfl⟩) _ hm rfl
            · exact hcr (List.mem_append_left _ (List.mem_map.2 ⟨p, hp, hm.2⟩))
          rw [hin] at h
          exact ⟨g, (Except.ok.inj h).symm, hall⟩

end Soapfish
