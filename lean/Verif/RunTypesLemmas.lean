import Verif.Spec.CodeTypes
import Verif.RunLemmas
/-
Simple types of imported modules.
-/
namespace Soapfish

/-! ### Class statements in a row -/

theorem execClass_env {env env' : PyEnv} {c : PyClassDef} (h : execClass env c = .ok env') :
    ∃ o, env' = (c.name, o) :: env := by
  unfold execClass at h
  cases hb : baseClass env c.base with
  | error e => rw [hb] at h; cases h
  | ok o =>
    rw [hb] at h
    cases o with
    | simple o =>
      simp only [bind, Except.bind] at h
      cases h1 : evalEnumeration c.enumeration with
      | error e => rw [h1] at h; cases h
      | ok a =>
        cases h2 : evalFacets c.facets with
        | error e => rw [h1, h2] at h; cases h
        | ok b =>
          cases h3 : execFields env [] c.fields with
          | error e => rw [h1, h2, h3] at h; cases h
          | ok f =>
            cases h4 : execCreate f c.create with
            | error e => rw [h1, h2, h3] at h; simp only [h4] at h; cases h
            | ok g => rw [h1, h2, h3] at h; simp only [h4] at h; exact ⟨_, (Except.ok.inj h).symm⟩
    | complex o =>
      simp only [bind, Except.bind] at h
      cases h1 : evalEnumeration c.enumeration with
      | error e => rw [h1] at h; cases h
      | ok a =>
        cases h2 : evalFacets c.facets with
        | error e => rw [h1, h2] at h; cases h
        | ok b =>
          cases h3 : execFields env [] c.fields with
          | error e => rw [h1, h2, h3] at h; cases h
          | ok f =>
            cases h4 : execCreate f c.create with
            | error e => rw [h1, h2, h3] at h; simp only [h4] at h; cases h
            | ok g => rw [h1, h2, h3] at h; simp only [h4] at h; exact ⟨_, (Except.ok.inj h).symm⟩

/-- What a class statement on top of a simple type leaves. -/
theorem execClass_on_simple {env env' : PyEnv} {c : PyClassDef} {o : SimpleObj} (hb : baseClass env c.base = .ok (.simple o))
    (h : execClass env c = .ok env') :
    ∃ e f, evalEnumeration c.enumeration = .ok e ∧ evalFacets c.facets = .ok f ∧
      env' = (c.name, .simple { cls := .derived c.name o.cls, enumeration := e.or o.enumeration
                                facets := f ++ o.facets }) :: env := by
  unfold execClass at h
  rw [hb] at h
  simp only [bind, Except.bind] at h
  cases h1 : evalEnumeration c.enumeration with
  | error e => rw [h1] at h; cases h
  | ok a =>
    cases h2 : evalFacets c.facets with
    | error e => rw [h1, h2] at h; cases h
    | ok b =>
      cases h3 : execFields env [] c.fields with
      | error e => rw [h1, h2, h3] at h; cases h
      | ok f =>
        cases h4 : execCreate f c.create with
        | error e => rw [h1, h2, h3] at h; simp only [h4] at h; cases h
        | ok g => rw [h1, h2, h3] at h; simp only [h4] at h; exact ⟨_, _, rfl, rfl, (Except.ok.inj h).symm⟩

theorem execClasses_cons {env env' : PyEnv} {c : PyClassDef} {l : List PyClassDef}
    (h : execClasses env (c :: l) = .ok env') : ∃ e, execClass env c = .ok e ∧ execClasses e l = .ok env' := by
  unfold execClasses at h
  cases hc : execClass env c with
  | error e => rw [hc] at h; cases h
  | ok e => rw [hc] at h; exact ⟨e, rfl, h⟩

/-- Names that are not bound again keep their meaning. -/
theorem execClasses_get {l : List PyClassDef} : ∀ {env env' : PyEnv}, execClasses env l = .ok env' → ∀ n,
    n ∉ l.map (·.name) → env'.get n = env.get n := by
  induction l with
  | nil => intro env env' h n _; rw [← Except.ok.inj h]
  | cons c l ih =>
    intro env env' h n hn
    obtain ⟨e, h1, h2⟩ := execClasses_cons h
    obtain ⟨o, rfl⟩ := execClass_env h1
    rw [ih h2 n fun hm => hn (List.mem_cons_of_mem _ hm), get_cons, if_neg]
    intro he
    exact hn (he ▸ List.mem_cons_self ..)

/-- Only the given names are bound. -/
theorem execClasses_bound {l : List PyClassDef} : ∀ {env env' : PyEnv}, execClasses env l = .ok env' → ∀ n o,
    env'.get n = some o → n ∈ l.map (·.name) ∨ env.get n = some o := by
  intro env env' h n o ho
  by_cases hn : n ∈ l.map (·.name)
  · exact .inl hn
  · exact .inr (execClasses_get h n hn ▸ ho)

/-- A class of a module with distinct names: the statement was executed, and what was known then is known in the end. -/
theorem execClasses_mem {l : List PyClassDef} : ∀ {env env' : PyEnv}, execClasses env l = .ok env' →
    (l.map (·.name)).Nodup → (∀ n ∈ l.map (·.name), env.get n = none) → ∀ c ∈ l,
    ∃ e o, execClass e c = .ok ((c.name, o) :: e) ∧ env'.get c.name = some o ∧
      ∀ n x, e.get n = some x → env'.get n = some x := by
  induction l with
  | nil => intro _ _ _ _ _ c hc; exact absurd hc List.not_mem_nil
  | cons a l ih =>
    intro env env' h hd hf c hc
    obtain ⟨e, h1, h2⟩ := execClasses_cons h
    obtain ⟨o, rfl⟩ := execClass_env h1
    obtain ⟨hd1, hd2⟩ := List.nodup_cons.1 hd
    have hout : ∀ n ∈ l.map (·.name), PyEnv.get ((a.name, o) :: env) n = none := by
      intro n hn
      rw [get_cons, if_neg (fun he : a.name = n => hd1 (by rw [← he] at hn; exact hn))]
      exact hf n (List.mem_cons_of_mem _ hn)
    rcases List.mem_cons.1 hc with rfl | hc
    · refine ⟨env, o, h1, ?_, ?_⟩
      · rw [execClasses_get h2 _ hd1, get_cons, if_pos rfl]
      · intro n x hx
        have hn : n ∉ (c :: l).map (·.name) := fun hm => by rw [hf n hm] at hx; cases hx
        rw [execClasses_get h n hn]; exact hx
    · exact ih h2 hd2 hout c hc

/-! ### The classes for simple types -/

section
variable {prefixes : List (Option Str)}

theorem collect_mem {α : Type} {f : List Str → α → Except Exn (List PyClassDef × List Str)} {l : List α} :
    ∀ {known : List Str} {r : List PyClassDef × List Str}, collect f known l = .ok r → ∀ a ∈ l,
    ∃ k cs k', f k a = .ok (cs, k') ∧ ∀ c ∈ cs, c ∈ r.1 := by
  induction l with
  | nil => intro _ _ _ a ha; exact absurd ha List.not_mem_nil
  | cons x l ih =>
    intro known r h a ha
    unfold collect at h
    cases hx : f known x with
    | error e => rw [hx] at h; cases h
    | ok y =>
      rw [hx] at h
      simp only [bind, Except.bind] at h
      cases hl : collect f y.2 l with
      | error e => rw [hl] at h; cases h
      | ok z =>
        rw [hl] at h
        have hr := Except.ok.inj h
        subst hr
        rcases List.mem_cons.1 ha with rfl | ha
        · exact ⟨known, y.1, y.2, hx, fun c hc => List.mem_append_left _ hc⟩
        · obtain ⟨k, cs, k', h1, h2⟩ := ih hl a ha
          exact ⟨k, cs, k', h1, fun c hc => List.mem_append_right _ (h2 c hc)⟩

/-- The code for a document contains the classes for its simple types. -/
theorem schemaToPy_simple {digest : Str → Str} {n : Nat} {parent : Option Str} {d : DSchema} {m : PyModule}
    (h : schemaToPy prefixes digest n parent d = .ok m) {st : DSimple} (hs : st ∈ d.simpleTypes) :
    ∃ k cs k', simpleClasses prefixes k st = .ok (cs, k') ∧ ∀ c ∈ cs, c ∈ m.classes := by
  unfold schemaToPy at h
  cases h1 : reorderComplex n d.complexTypes with
  | error e => rw [h1] at h; cases h
  | ok cts =>
    rw [h1] at h
    simp only [bind, Except.bind] at h
    unfold schemaCode at h
    simp only [bind, Except.bind] at h
    cases h2 : collect (simpleClasses prefixes) [] d.simpleTypes with
    | error e => rw [h2] at h; cases h
    | ok r =>
      simp only [h2] at h
      obtain ⟨k, cs, k', hc, hin⟩ := collect_mem h2 st hs
      refine ⟨k, cs, k', hc, fun c hcc => ?_⟩
      split at h
      · cases h
      · rename_i hm
        have hr := Except.ok.inj h
        split at hm
        · cases hm
        split at hm
        · cases hm
        split at hm
        · cases hm
        split at hm
        · cases hm
        split at hm
        · cases hm
        have hr2 := Except.ok.inj hm
        rw [← hr, ← hr2]
        simp only [List.mem_append]
        exact .inl (.inl (.inl (.inl (hin c hcc))))

theorem simpleClasses_restriction {known k' : List Str} {st : DSimple} {cs : List PyClassDef} {r : DRestriction}
    (h : simpleClasses prefixes known st = .ok (cs, k')) (hr : st.restriction = some r) :
    ∃ c ∈ cs, restrictionClass prefixes known st.name r = .ok c := by
  unfold simpleClasses at h
  rw [hr] at h
  simp only [bind, Except.bind] at h
  cases hc : restrictionClass prefixes known st.name r with
  | error e => rw [hc] at h; cases h
  | ok c =>
    rw [hc] at h
    refine ⟨c, ?_, rfl⟩
    simp only at h
    split at h
    · cases h
    · split at h
      · cases h
      · have := (Prod.mk.inj (Except.ok.inj h)).1
        rw [← this]; exact List.mem_append_left _ (List.mem_cons_self ..)

theorem Qualified.split {q : Str} {p : Option Str} {l : Str} (h : Qualified q p l) : splitQName q = .ok (p, l) := by
  unfold splitQName
  cases h with
  | plain h => rw [splitOn_none h]
  | prefixed hp hl => rw [splitOn_colon hp, splitOn_none hl]

theorem pyRef_qualified {known : List Str} {src : TypeSource} {q l : Str} {p : Option Str} {r : PyRef}
    (hs : src.qname = .ok q) (hq : Qualified q p l) (h : pyRef prefixes known src = .ok r) :
    r = if p ∈ prefixes then .xsd (capName l) else if capName l ∈ known then .name (capName l) else .path (capName l) := by
  unfold pyRef at h
  rw [hs] at h
  simp only [bind, Except.bind, hq.split] at h
  cases l with
  | nil => cases h
  | cons c cs =>
    rw [show capitalize (c :: cs) = .ok (capName (c :: cs)) from rfl] at h
    exact (Except.ok.inj h).symm

theorem qname_base {q : Str} {known : List Str} {r : PyRef} (h : pyRef prefixes known (.derived (some q)) = .ok r) :
    TypeSource.qname (.derived (some q)) = .ok q := by
  cases q with
  | nil => cases h
  | cons c cs => rfl

/-- The class statement for a restriction. -/
theorem restrictionClass_eq {known : List Str} {n q l : Str} {p : Option Str} {r : DRestriction} {c : PyClassDef}
    (hb : r.base = some q) (hq : Qualified q p l) (h : restrictionClass prefixes known (some n) r = .ok c) :
    c.name = capName n ∧ c.enumeration = (if r.enumerations = [] then none else some (r.enumerations.map textOf)) ∧
    c.facets = r.pattern.toList.map (fun v => (py"pattern", textOf v)) ++ boundFacets r ∧
    c.base = (if p ∈ prefixes then .xsd (capName l) else if capName l ∈ known then .name (capName l)
      else .path (capName l)) := by
  unfold restrictionClass at h
  simp only [bind, Except.bind] at h
  cases n with
  | nil => cases h
  | cons a as =>
    rw [show capitalizeO (some (a :: as)) = .ok (capName (a :: as)) from rfl] at h
    simp only at h
    cases hr : pyRef prefixes known (.derived r.base) with
    | error e => rw [hr] at h; cases h
    | ok x =>
      rw [hr] at h
      have := Except.ok.inj h
      subst this
      rw [hb] at hr
      exact ⟨rfl, rfl, rfl, pyRef_qualified (qname_base hr) hq hr⟩

/-! ### Facets of a class -/

theorem evalFacets_cons {n s : Str} {l f : List (Str × Str)} (h : evalFacets ((n, s) :: l) = .ok f) :
    ∃ a r, rawTextValue s = some a ∧ evalFacets l = .ok r ∧ f = (n, a) :: r := by
  unfold evalFacets at h
  cases hs : rawTextValue s with
  | none => rw [hs] at h; cases h
  | some a =>
    rw [hs] at h
    simp only [literal, bind, Except.bind] at h
    cases hl : evalFacets l with
    | error e => rw [hl] at h; cases h
    | ok r => rw [hl] at h; exact ⟨a, r, rfl, rfl, (Except.ok.inj h).symm⟩

theorem facetOf_none {l : List (Str × Str)} {n : Str} (h : n ∉ l.map (·.1)) : facetOf l n = none := by
  unfold facetOf
  have : l.find? (fun p => decide (p.1 = n)) = none := by
    rw [List.find?_eq_none]
    intro p hp hd
    exact h (of_decide_eq_true hd ▸ List.mem_map_of_mem hp)
  rw [this]; rfl

theorem facetOf_append {a b : List (Str × Str)} {n : Str} : facetOf (a ++ b) n = (facetOf a n).or (facetOf b n) := by
  unfold facetOf
  rw [List.find?_append]
  cases List.find? (fun p : Str × Str => decide (p.1 = n)) a <;> rfl

theorem evalFacets_names {l f : List (Str × Str)} (h : evalFacets l = .ok f) : f.map (·.1) = l.map (·.1) := by
  induction l generalizing f with
  | nil => rw [← Except.ok.inj h]
  | cons p l ih =>
    obtain ⟨a, r, _, hr, rfl⟩ := evalFacets_cons h
    show p.1 :: r.map (·.1) = _
    rw [ih hr]; rfl

theorem bound_names (r : DRestriction) : py"pattern" ∉ (boundFacets r).map (·.1) := by
  unfold boundFacets
  cases r.minInclusive <;> cases r.minExclusive <;> cases r.maxInclusive <;> cases r.maxExclusive <;>
    exact of_decide_eq_true rfl

/-- The pattern of a class made for a restriction. -/
theorem pattern_facet {r : DRestriction} (hp : PlainFacets r) {f : List (Str × Str)}
    (h : evalFacets (r.pattern.toList.map (fun v => (py"pattern", textOf v)) ++ boundFacets r) = .ok f) :
    facetOf f py"pattern" = r.pattern.map textOf := by
  cases hpat : r.pattern with
  | none =>
    rw [hpat] at h
    exact facetOf_none (evalFacets_names h ▸ bound_names r)
  | some v =>
    rw [hpat] at h
    obtain ⟨s, rfl, hs⟩ := hp.2 v hpat
    obtain ⟨a, t, h1, _, rfl⟩ := evalFacets_cons h
    rw [show textOf (some s) = s from rfl, rawTextValue_raw hs] at h1
    rw [← Option.some.inj h1]
    rfl

theorem enum_values {r : DRestriction} (hp : PlainFacets r) {e : Option (List Str)}
    (h : evalEnumeration (if r.enumerations = [] then none else some (r.enumerations.map textOf)) = .ok e) :
    e = if r.enumerations = [] then none else some (r.enumerations.map textOf) := by
  by_cases he : r.enumerations = []
  · rw [if_pos he] at h ⊢; exact (Except.ok.inj h).symm
  · rw [if_neg he] at h ⊢
    have : evalTexts (r.enumerations.map textOf) = .ok (r.enumerations.map textOf) := by
      refine evalTexts_plain fun s hs => ?_
      obtain ⟨o, ho, rfl⟩ := List.mem_map.1 hs
      obtain ⟨t, rfl, ht⟩ := hp.1 o ho
      exact ht
    simp only [evalEnumeration, this, bind, Except.bind] at h
    exact (Except.ok.inj h).symm

/-! ### Chains of restrictions -/

/-- The class of a simple type derived from a built-in type. -/
theorem derived_object {digest : Str → Str} {n limit : Nat} {parent : Option Str} {d : DSchema} {m : PyModule}
    {vars : SchemaVars} {env : PyEnv} {s : GSchema} (hm : schemaToPy prefixes digest n parent d = .ok m)
    (he : execModule vars [] limit m = .ok (env, s)) (hd : (m.classes.map (·.name)).Nodup) {c : Str} {b : Builtin}
    {rs : List DRestriction} (h : DerivedBy prefixes d c b rs) :
    ∃ o, env.get c = some (.simple o) ∧ o.cls.root = some b ∧ ((∀ r ∈ rs, PlainFacets r) →
      facetOf o.facets py"pattern" = (rs.findSome? fun r => r.pattern).map textOf ∧
      o.enumeration = (enumerationOf rs).map (·.map textOf)) := by
  have hx : execClasses [] m.classes = .ok env := by
    unfold execModule at he
    simp only [bind, Except.bind] at he
    cases h1 : checkModule m with
    | error e => rw [h1] at he; cases he
    | ok u =>
      rw [h1] at he
      simp only at he
      cases h2 : execClasses [] m.classes with
      | error e => rw [h2] at he; cases he
      | ok x =>
        rw [h2] at he
        simp only at he
        cases h3 : execSchema vars x limit m.schema with
        | error e => rw [h3] at he; cases he
        | ok y => rw [h3] at he; rw [(Prod.mk.inj (Except.ok.inj he)).1]
  have key : ∀ {st : DSimple} {n q l : Str} {p : Option Str} {r : DRestriction}, st ∈ d.simpleTypes → st.name = some n →
      st.restriction = some r → r.base = some q → Qualified q p l → (o : SimpleObj) →
      (p ∈ prefixes → xsdAttr (capName l) = .ok (.simple o)) →
      (p ∉ prefixes → env.get (capName l) = some (.simple o)) →
      ∃ e f, evalEnumeration (if r.enumerations = [] then none else some (r.enumerations.map textOf)) = .ok e ∧
        evalFacets (r.pattern.toList.map (fun v => (py"pattern", textOf v)) ++ boundFacets r) = .ok f ∧
        env.get (capName n) = some (.simple { cls := .derived (capName n) o.cls, enumeration := e.or o.enumeration
                                              facets := f ++ o.facets }) := by
    intro st n q l p r h1 h2 h3 h4 h5 o h6 h7
    obtain ⟨k, cs, k', hcs, hin⟩ := schemaToPy_simple hm h1
    obtain ⟨cd, hcd, hr⟩ := simpleClasses_restriction hcs h3
    rw [h2] at hr
    obtain ⟨hn, hen, hfa, hba⟩ := restrictionClass_eq h4 h5 hr
    obtain ⟨e0, x, hex, hget, hkeep⟩ := execClasses_mem hx hd (fun _ _ => rfl) cd (hin cd hcd)
    have hbase : baseClass e0 cd.base = .ok (.simple o) := by
      rw [hba]
      by_cases hp : p ∈ prefixes
      · rw [if_pos hp]; exact h6 hp
      · rw [if_neg hp]
        by_cases hk : capName l ∈ k
        · rw [if_pos hk]
          cases hg : e0.get (capName l) with
          | none =>
            exfalso
            have hb : baseClass e0 cd.base = .error (.raised .nameError) := by
              rw [hba, if_neg hp, if_pos hk]; unfold baseClass; simp only [hg]
            unfold execClass at hex
            rw [hb] at hex
            cases hex
          | some y =>
            have := hkeep _ _ hg
            rw [h7 hp] at this
            rw [Option.some.inj this]
            unfold baseClass; simp only [hg]
        · exfalso
          have hb : baseClass e0 cd.base = .error (.raised .typeError) := by
            rw [hba, if_neg hp, if_neg hk]; rfl
          unfold execClass at hex
          rw [hb] at hex
          cases hex
    obtain ⟨e, f, h8, h9, h10⟩ := execClass_on_simple hbase hex
    rw [hen] at h8
    rw [hfa] at h9
    refine ⟨e, f, h8, h9, ?_⟩
    have h11 : x = .simple _ := (Prod.mk.inj (List.cons.inj h10).1).2
    rw [hn] at hget h11
    rw [hget, h11]
  induction h with
  | @first st n r q p l b h1 h2 h3 h4 h5 h6 h7 =>
    obtain ⟨e, f, h8, h9, h10⟩ := key h1 h2 h3 h4 h5 { cls := .builtin b }
      (fun _ => h7 ▸ xsdAttr_builtin b) (fun h => absurd h6 h)
    refine ⟨_, h10, rfl, fun hp => ⟨?_, ?_⟩⟩
    · show facetOf (f ++ []) py"pattern" = _
      rw [List.append_nil, pattern_facet (hp r (List.mem_cons_self ..)) h9]
      cases hpat : r.pattern <;> simp [List.findSome?, hpat]
    · show e.or none = _
      rw [enum_values (hp r (List.mem_cons_self ..)) h8]
      unfold enumerationOf
      by_cases hen : r.enumerations = []
      · simp [List.findSome?, hen]
      · simp [List.findSome?, hen]
  | @again st n r q p l b rs h1 h2 h3 h4 h5 h6 h7 ih =>
    obtain ⟨o, ho, hroot, hfac⟩ := ih
    obtain ⟨e, f, h8, h9, h10⟩ := key h1 h2 h3 h4 h5 o (fun h => absurd h h6) (fun _ => ho)
    refine ⟨_, h10, hroot, fun hp => ?_⟩
    obtain ⟨hf1, hf2⟩ := hfac fun r hr => hp r (List.mem_cons_of_mem _ hr)
    have hpr := hp r (List.mem_cons_self ..)
    refine ⟨?_, ?_⟩
    · show facetOf (f ++ o.facets) py"pattern" = _
      rw [facetOf_append, pattern_facet hpr h9, hf1]
      cases hpat : r.pattern <;> simp [List.findSome?, hpat]
    · show e.or o.enumeration = _
      rw [enum_values hpr h8, hf2]
      unfold enumerationOf
      by_cases hen : r.enumerations = []
      · simp [List.findSome?, hen]
      · simp [List.findSome?, hen]

end

end Soapfish
