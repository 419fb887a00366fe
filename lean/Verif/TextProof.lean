import Verif.TextModule
import Verif.RunFields
/-
Reading generated text: blocks, and what the templates take care of.
-/
namespace Soapfish

open PyLex

/-! ### Blocks -/

/-- Indentations of open blocks at the end of a class -/
def Level (o : List Nat) : Prop := o = [0] ∨ o = [4, 0] ∨ o = [8, 4, 0]

theorem nested_body : ∀ (P : List (Nat × PyLine)), (∀ l ∈ P, l.1 = 4 ∧ l.2.opens = false) → ∀ rest, nested [4, 0] false (P ++ rest) = nested [4, 0] false rest
  | [], _, _ => rfl
  | (n, l) :: P, h, rest => by
    obtain ⟨rfl, h2⟩ := h (n, l) (List.mem_cons_self ..)
    show nested [4, 0] l.opens (P ++ rest) = _
    rw [h2]
    exact nested_body P (fun x hx => h x (List.mem_cons_of_mem _ hx)) rest

theorem nested_first : ∀ (P : List (Nat × PyLine)), (∀ l ∈ P, l.1 = 4 ∧ l.2.opens = false) → P ≠ [] → ∀ rest, nested [0] true (P ++ rest) = nested [4, 0] false rest
  | [], _, h, _ => absurd rfl h
  | (n, l) :: P, h, _, rest => by
    obtain ⟨rfl, h2⟩ := h (n, l) (List.mem_cons_self ..)
    show nested [4, 0] l.opens (P ++ rest) = _
    rw [h2]
    exact nested_body P (fun x hx => h x (List.mem_cons_of_mem _ hx)) rest

theorem nested_assign : ∀ (l : List Str) (rest : List (Nat × PyLine)),
    nested [8, 4, 0] false (l.map (fun p => (8, .assign (.attr (.name py"instance") p) (.name p))) ++ rest) = nested [8, 4, 0] false rest
  | [], _ => rfl
  | _ :: l, rest => nested_assign l rest

theorem nested_create (cr : Option (List Str)) (rest : List (Nat × PyLine)) :
    ∃ o, Level o ∧ nested [4, 0] false (createLines cr ++ rest) = nested o false rest := by
  cases cr with
  | none => exact ⟨_, .inr (.inl rfl), rfl⟩
  | some l =>
    refine ⟨_, .inr (.inr rfl), ?_⟩
    show nested [8, 4, 0] false ((l.map (fun p => (8, .assign (.attr (.name py"instance") p) (.name p))) ++ [(8, .ret (.name py"instance"))]) ++ rest) = _
    rw [List.append_assoc, nested_assign]
    rfl

theorem nested_class {P : List (Nat × PyLine)} (hP : ∀ l ∈ P, l.1 = 4 ∧ l.2.opens = false) (hne : P ≠ []) {o : List Nat} (ho : Level o) (k : Str) (e : PyExpr) (cr : Option (List Str))
    (rest : List (Nat × PyLine)) : ∃ o', Level o' ∧ nested o false ((0, .block k e) :: (P ++ createLines cr) ++ rest) = nested o' false rest := by
  obtain ⟨o', h1, h2⟩ := nested_create cr rest
  refine ⟨o', h1, ?_⟩
  have h3 : nested o false ((0, .block k e) :: (P ++ createLines cr) ++ rest) = nested [0] true ((P ++ createLines cr) ++ rest) := by
    rcases ho with rfl | rfl | rfl <;> rfl
  rw [h3, List.append_assoc, nested_first P hP hne, h2]

/-- The lines of a class body before `create` -/
def PyClassDef.front (o : Opening) (c : PyClassDef) : List (Nat × PyLine) :=
  o.lines ++ (enumerationLines c.enumeration ++ (c.facets.map facetLine ++ (indicatorLines c.indicator ++ c.fields.map PyField.line)))

theorem lines_eq (o : Opening) (c : PyClassDef) : c.lines o = (0, .block py"class" (.call (.name c.name) [(none, c.base.expr)])) :: (c.front o ++ createLines c.create) := by
  unfold PyClassDef.lines PyClassDef.front
  simp only [List.append_assoc]

theorem front_flat (o : Opening) (c : PyClassDef) : ∀ l ∈ c.front o, l.1 = 4 ∧ l.2.opens = false := by
  intro l hl
  unfold PyClassDef.front at hl
  simp only [List.mem_append, enumerationLines, indicatorLines, List.mem_map, Option.mem_toList] at hl
  rcases hl with h | ⟨_, _, rfl⟩ | ⟨_, _, rfl⟩ | ⟨_, _, rfl⟩ | ⟨_, _, rfl⟩
  · cases o with
    | nothing => cases h
    | pass => rw [List.mem_singleton.1 h]; exact ⟨rfl, rfl⟩
    | inheritance k => rw [List.mem_singleton.1 h]; exact ⟨rfl, rfl⟩
  all_goals exact ⟨rfl, rfl⟩

theorem front_some {o : Opening} {c : PyClassDef} (h : o ≠ .nothing ∨ c.enumeration ≠ none ∨ c.facets ≠ [] ∨ c.fields ≠ []) : c.front o ≠ [] := by
  intro he
  unfold PyClassDef.front at he
  simp only [List.append_eq_nil_iff, enumerationLines, List.map_eq_nil_iff, Option.toList_eq_nil_iff] at he
  obtain ⟨h1, h2, h3, _, h5⟩ := he
  rcases h with h | h | h | h
  · cases o with
    | nothing => exact h rfl
    | pass => cases h1
    | inheritance k => cases h1
  · exact h h2
  · exact h h3
  · exact h h5

theorem nested_classes {os : List Opening} {cs : List PyClassDef} (h : All2 (fun o c => c.Regular o) os cs) : (∀ c ∈ cs, c.Fits) → ∀ {o : List Nat}, Level o → ∀ rest,
    ∃ o', Level o' ∧ nested o false ((List.zipWith PyClassDef.lines os cs).flatten ++ rest) = nested o' false rest := by
  induction h with
  | nil => exact fun _ o ho rest => ⟨o, ho, rfl⟩
  | @cons a c os cs h1 _ ih =>
    intro hf o ho rest
    have hne := front_some (h1.body (hf c (List.mem_cons_self ..)).body)
    rw [List.zipWith_cons_cons, List.flatten_cons, List.append_assoc, lines_eq]
    obtain ⟨o1, h2, h3⟩ := nested_class (front_flat a c) hne ho py"class" (.call (.name c.name) [(none, c.base.expr)]) c.create ((List.zipWith PyClassDef.lines os cs).flatten ++ rest)
    obtain ⟨o2, h4, h5⟩ := ih (fun c' hc' => hf c' (List.mem_cons_of_mem _ hc')) h2 rest
    exact ⟨o2, h4, h3.trans h5⟩

/-! ### The whole text -/

theorem reads'_classes {os : List Opening} {cs : List PyClassDef} (h : All2 (fun o c => c.Regular o) os cs) (hf : ∀ c ∈ cs, c.Fits) :
    Reads' (List.zipWith PyClassDef.text os cs).flatten (List.zipWith PyClassDef.lines os cs).flatten := by
  induction h with
  | nil => exact reads'_nil
  | @cons a c os cs h1 _ ih =>
    exact reads'_append (reads'_class (hf c (List.mem_cons_self ..)) h1) (ih fun c' hc' => hf c' (List.mem_cons_of_mem _ hc'))

theorem quotable_chars {q : Char} {s : Str} (h : Quotable q s) : ∀ c ∈ s, c ≠ '\n' ∧ c ≠ '\r' ∧ c ≠ Char.ofNat 0 := by
  induction h with
  | nil => exact fun _ h => nomatch h
  | char _ _ h3 h4 h5 _ ih =>
    intro c hc
    rcases List.mem_cons.1 hc with rfl | hc
    · exact ⟨h3, h4, h5⟩
    · exact ih c hc
  | pair h3 h4 h5 _ ih =>
    intro c hc
    rcases List.mem_cons.1 hc with rfl | hc
    · decide
    rcases List.mem_cons.1 hc with rfl | hc
    · exact ⟨h3, h4, h5⟩
    · exact ih c hc

theorem run_comment {done : List (Nat × List Tok)} {i : Nat} {d : Nat} {T : List Tok} : ∀ {s : Str}, (∀ c ∈ s, c ≠ '\n' ∧ c ≠ '\r' ∧ c ≠ Char.ofNat 0) → ∀ rest,
    run ⟨done, i, T, d, .comment⟩ (s ++ rest) = run ⟨done, i, T, d, .comment⟩ rest
  | [], _, _ => rfl
  | c :: s, h, rest => by
    obtain ⟨h1, h2, h3⟩ := h c (List.mem_cons_self ..)
    rw [List.cons_append, run_cons, show step ⟨done, i, T, d, .comment⟩ c = ⟨done, i, T, d, .comment⟩ by simp [step, h1, h2, h3]]
    exact run_comment (fun x hx => h x (List.mem_cons_of_mem _ hx)) rest

theorem reads'_comment {s : Str} (h : ∀ c ∈ s, c ≠ '\n' ∧ c ≠ '\r' ∧ c ≠ Char.ofNat 0) : Reads' (py"# " ++ (s ++ py"\n\n")) [] := by
  refine ⟨[], ⟨fun done => ?_, (fun _ h => nomatch h)⟩, rfl⟩
  rw [List.map_nil, List.append_nil]
  show run ⟨done, 0, [], 0, .comment⟩ (s ++ py"\n\n") = _
  rw [run_comment h]
  rfl

/-- What the templates take care of themselves. -/
structure PyModule.Regular (os : List Opening) (m : PyModule) : Prop where
  classes : All2 (fun o c => c.Regular o) os m.classes
  var : Identifier m.schema.var
  imports : ∀ n ∈ m.schema.imports, Identifier n
  includes : ∀ n ∈ m.schema.includes, Identifier n

theorem parseLines_map : ∀ {rs : List Read}, (∀ r ∈ rs, parseLine r.2.1 = some r.2.2) → parseLines (rs.map fun r => (r.1, r.2.1)) = some (rs.map fun r => (r.1, r.2.2))
  | [], _ => rfl
  | r :: rs, h => by
    show (match parseLine r.2.1, parseLines (rs.map fun r => (r.1, r.2.1)) with
      | some a, some l => some ((r.1, a) :: l)
      | _, _ => none) = _
    rw [h r (List.mem_cons_self ..), parseLines_map fun x hx => h x (List.mem_cons_of_mem _ hx)]
    rfl

theorem read_of {s : Str} {ls : List (Nat × PyLine)} (h : Reads' s ls) (hn : nested [0] false ls = true) : readPython s = some ls := by
  obtain ⟨rs, ⟨h1, h2⟩, rfl⟩ := h
  have hl : lexPython s = some (rs.map fun r => (r.1, r.2.1)) := by
    unfold lexPython
    rw [show run {} s = bol ([] ++ rs.map fun r => (r.1, r.2.1)) from h1 []]
    exact if_pos ⟨rfl, rfl⟩
  unfold readPython
  rw [hl]
  show (match parseLines (rs.map fun r => (r.1, r.2.1)) with
    | some r => if nested [0] false r = true then some r else none
    | none => none) = _
  rw [parseLines_map h2]
  exact if_pos hn

theorem read_module {os : List Opening} {m : PyModule} (h : m.Fits) (hr : m.Regular os) : readPython (m.text os) = some (m.lines os) := by
  refine read_of ?_ ?_
  · have h1 := reads'_append (reads'_comment (quotable_chars h.schema.targetNamespace)) (reads'_append (reads'_classes hr.classes h.classes) (reads'_schema h.schema hr.var hr.imports hr.includes))
    simp only [List.append_assoc] at h1
    exact h1
  · obtain ⟨o, h1, h2⟩ := nested_classes hr.classes h.classes (.inl rfl) [m.schema.line]
    unfold PyModule.lines
    rw [h2]
    rcases h1 with rfl | rfl | rfl <;> rfl

/-! ### Generated code -/

section
variable {prefixes : List (Option Str)}

theorem regular_attribute {known : List Str} {a : DAttribute} {f : PyField} (h : attributeField prefixes known a = .ok f) : f.Regular := by
  unfold attributeField at h
  obtain ⟨t, _, h⟩ := bind_eq_ok.1 h
  obtain ⟨u, hu, h⟩ := bind_eq_ok.1 h
  rw [← Except.ok.inj h]
  show IsUse u
  unfold useText at hu
  split at hu
  · exact .inr (.inr (Except.ok.inj hu).symm)
  split at hu
  · exact .inl (Except.ok.inj hu).symm
  split at hu
  · exact .inr (.inl (Except.ok.inj hu).symm)
  · cases hu

theorem regular_group {known : List Str} {e : DElement} {f : PyField} (h : groupField prefixes known e = .ok f) : f.Regular := by
  unfold groupField at h
  obtain ⟨t, _, h⟩ := bind_eq_ok.1 h
  rw [← Except.ok.inj h]
  trivial

theorem regular_inPlace {name : Option Str} {r : DRestriction} : ∀ p ∈ inPlaceArgs name r, Identifier p.1 := by
  intro p hp
  unfold inPlaceArgs at hp
  simp only [List.mem_append, facetArg, List.mem_map, Option.mem_toList] at hp
  rcases hp with (((((((((((h | h) | h) | h) | h) | h) | h) | h) | h) | h) | h) | h) | h
  · split at h
    · cases h
    · rw [List.mem_singleton.1 h]; exact ident_of rfl
  · split at h
    · rw [List.mem_singleton.1 h]; exact ident_of rfl
    · cases h
  all_goals (obtain ⟨_, _, rfl⟩ := h; exact ident_of rfl)

theorem regular_element {known : List Str} {e : DElement} {l : List PyField} (h : elementFields prefixes known e = .ok l) : ∀ f ∈ l, f.Regular := by
  unfold elementFields at h
  obtain ⟨a, ha, h⟩ := bind_eq_ok.1 h
  obtain ⟨b, hb, h⟩ := bind_eq_ok.1 h
  obtain ⟨c, hc, h⟩ := bind_eq_ok.1 h
  rw [← Except.ok.inj h]
  intro f hf
  rcases List.mem_append.1 hf with hf | hf
  · rcases List.mem_append.1 hf with hf | hf
    · unfold typedField at ha
      split at ha
      · rw [← Except.ok.inj ha] at hf; cases hf
      · obtain ⟨t, _, ha⟩ := bind_eq_ok.1 ha
        split at ha
        · rw [← Except.ok.inj ha] at hf; rw [List.mem_singleton.1 hf]; trivial
        · rw [← Except.ok.inj ha] at hf; rw [List.mem_singleton.1 hf]; trivial
    · unfold inPlaceField at hb
      split at hb
      · rw [← Except.ok.inj hb] at hf; cases hf
      · obtain ⟨t, _, hb⟩ := bind_eq_ok.1 hb
        rw [← Except.ok.inj hb] at hf
        rw [List.mem_singleton.1 hf]
        exact regular_inPlace
  · unfold refField at hc
    split at hc
    · rw [← Except.ok.inj hc] at hf; cases hf
    · obtain ⟨t, _, hc⟩ := bind_eq_ok.1 hc
      rw [← Except.ok.inj hc] at hf
      rw [List.mem_singleton.1 hf]
      trivial

theorem regular_groupRef {known : List Str} {r : Option Str} {f : PyField} (h : attributeGroupRef prefixes known r = .ok f) : f.Regular := by
  unfold attributeGroupRef at h
  obtain ⟨t, _, h⟩ := bind_eq_ok.1 h
  rw [← Except.ok.inj h]
  trivial

theorem regular_body {known : List Str} {n : Str} {b : PyRef} {c : DContent} {k : PyClassDef} (h : complexBody prefixes known n b c = .ok k) {o : Opening} (ho : o.Regular) (hn : o ≠ .nothing) : k.Regular o := by
  unfold complexBody at h
  obtain ⟨as, ha, h⟩ := bind_eq_ok.1 h
  obtain ⟨gs, hg, h⟩ := bind_eq_ok.1 h
  obtain ⟨es, he, h⟩ := bind_eq_ok.1 h
  rw [← Except.ok.inj h]
  refine ⟨ho, (fun _ h => nomatch h), ?_, fun _ => .inl hn⟩
  intro f hf
  rcases List.mem_append.1 hf with hf | hf
  · rcases List.mem_append.1 hf with hf | hf
    · obtain ⟨a, _, h1⟩ := (mapE_all2 ha).mem_right hf
      exact regular_attribute h1
    · obtain ⟨a, _, h1⟩ := (mapE_all2 hg).mem_right hf
      exact regular_groupRef h1
  · obtain ⟨l, hl, hf⟩ := List.mem_flatten.1 hf
    obtain ⟨a, _, h1⟩ := (mapE_all2 he).mem_right hl
    exact regular_element h1 f hf

theorem regular_opening (ct : DComplex) : (complexOpening ct).Regular ∧ complexOpening ct ≠ .nothing := by
  unfold complexOpening
  split
  · split
    · exact ⟨.inl rfl, (fun h => nomatch h)⟩
    · exact ⟨.inr (.inl rfl), (fun h => nomatch h)⟩
  · exact ⟨.inr (.inr rfl), (fun h => nomatch h)⟩
  · exact ⟨trivial, (fun h => nomatch h)⟩

theorem regular_complex {known : List Str} {n : Option Str} {ct : DComplex} {k : PyClassDef} (h : complexClass prefixes known n ct = .ok k) : k.Regular (complexOpening ct) := by
  obtain ⟨h1, h2⟩ := regular_opening ct
  unfold complexClass at h
  split at h
  · obtain ⟨_, _, h⟩ := bind_eq_ok.1 h
    exact regular_body h h1 h2
  · split at h
    · obtain ⟨_, _, h⟩ := bind_eq_ok.1 h
      obtain ⟨_, _, h⟩ := bind_eq_ok.1 h
      exact regular_body h h1 h2
    · obtain ⟨_, _, h⟩ := bind_eq_ok.1 h
      obtain ⟨_, _, h⟩ := bind_eq_ok.1 h
      exact regular_body h h1 h2

theorem regular_attributeGroup {known : List Str} {g : Option Str × List DAttribute} {k : PyClassDef} (h : attributeGroupClass prefixes known g = .ok k) : k.Regular .nothing := by
  unfold attributeGroupClass at h
  obtain ⟨_, _, h⟩ := bind_eq_ok.1 h
  obtain ⟨fs, hf, h⟩ := bind_eq_ok.1 h
  rw [← Except.ok.inj h]
  refine ⟨trivial, (fun _ h => nomatch h), fun f hf' => ?_, fun hb => .inr (.inr (.inr ?_))⟩
  · obtain ⟨a, _, h1⟩ := (mapE_all2 hf).mem_right hf'
    exact regular_attribute h1
  · rintro rfl
    cases hg : g.2 with
    | nil => simp only [hg] at hb; exact absurd hb (by decide)
    | cons x l => have := (mapE_all2 hf).length; rw [hg] at this; cases this

theorem regular_groupClass {known : List Str} {g : Option Str × List DElement} {k : PyClassDef} (h : groupClass prefixes known g = .ok k) : k.Regular .nothing := by
  unfold groupClass at h
  obtain ⟨_, _, h⟩ := bind_eq_ok.1 h
  obtain ⟨fs, hf, h⟩ := bind_eq_ok.1 h
  rw [← Except.ok.inj h]
  refine ⟨trivial, (fun _ h => nomatch h), fun f hf' => ?_, fun hb => .inr (.inr (.inr ?_))⟩
  · obtain ⟨a, _, h1⟩ := (mapE_all2 hf).mem_right hf'
    exact regular_group h1
  · rintro rfl
    cases hg : g.2 with
    | nil => simp only [hg] at hb; exact absurd hb (by decide)
    | cons x l => have := (mapE_all2 hf).length; rw [hg] at this; cases this

theorem regular_restriction {known : List Str} {n : Option Str} {r : DRestriction} {k : PyClassDef} (h : restrictionClass prefixes known n r = .ok k) : k.Regular (restrictionOpening r) := by
  unfold restrictionClass at h
  obtain ⟨_, _, h⟩ := bind_eq_ok.1 h
  obtain ⟨_, _, h⟩ := bind_eq_ok.1 h
  rw [← Except.ok.inj h]
  refine ⟨?_, ?_, (fun _ h => nomatch h), fun _ => ?_⟩
  · unfold restrictionOpening; split <;> trivial
  · intro p hp
    rcases List.mem_append.1 hp with hp | hp
    · obtain ⟨_, _, rfl⟩ := List.mem_map.1 hp
      exact ident_of rfl
    · unfold boundFacets at hp
      rcases List.mem_append.1 hp with hp | hp
      · split at hp
        · rw [List.mem_singleton.1 hp]; exact ident_of rfl
        · rw [List.mem_singleton.1 hp]; exact ident_of rfl
        · cases hp
      · split at hp
        · rw [List.mem_singleton.1 hp]; exact ident_of rfl
        · rw [List.mem_singleton.1 hp]; exact ident_of rfl
        · cases hp
  · unfold restrictionOpening
    split
    · exact .inl fun h => nomatch h
    · rename_i hn
      right
      refine Classical.byContradiction fun hc => hn ?_
      have h1 : r.enumerations = [] := by
        refine Classical.byContradiction fun h1 => hc (.inl ?_)
        show (if r.enumerations = [] then none else some (r.enumerations.map textOf)) ≠ none
        rw [if_neg h1]
        exact fun h => nomatch h
      have h2 : r.pattern.toList.map (fun v => (py"pattern", textOf v)) ++ boundFacets r = [] :=
        Classical.byContradiction fun h2 => hc (.inr (.inl h2))
      obtain ⟨h3, h4⟩ := List.append_eq_nil_iff.1 h2
      unfold boundFacets at h4
      obtain ⟨h5, h6⟩ := List.append_eq_nil_iff.1 h4
      refine ⟨h1, Option.toList_eq_nil_iff.1 (List.map_eq_nil_iff.1 h3), ?_⟩
      cases e1 : r.minInclusive <;> cases e2 : r.minExclusive <;> cases e3 : r.maxInclusive <;> cases e4 : r.maxExclusive <;> simp only [e1, e2, e3, e4] at h5 h6 <;> first | exact ⟨rfl, rfl, rfl, rfl⟩ | exact absurd h5 (List.cons_ne_nil _ _) | exact absurd h6 (List.cons_ne_nil _ _)

theorem all2_collect {α : Type} {f : List Str → α → Except Exn (List PyClassDef × List Str)} {g : α → List Opening}
    (hf : ∀ known a r, f known a = .ok r → All2 (fun o c => c.Regular o) (g a) r.1) : ∀ {l : List α} {known : List Str} {r : List PyClassDef × List Str},
    collect f known l = .ok r → All2 (fun o c => c.Regular o) (l.flatMap g) r.1
  | [], known, r, h => by rw [← Except.ok.inj h]; exact .nil
  | a :: l, known, r, h => by
    unfold collect at h
    obtain ⟨x, hx, h⟩ := bind_eq_ok.1 h
    obtain ⟨y, hy, h⟩ := bind_eq_ok.1 h
    rw [← Except.ok.inj h]
    exact (hf _ _ _ hx).append (all2_collect hf hy)

theorem all2_const {α : Type} {l : List α} {cs : List PyClassDef} {R : α → PyClassDef → Prop} (h : All2 R l cs) {g : α → Opening} (hr : ∀ a c, R a c → c.Regular (g a)) :
    All2 (fun o c => c.Regular o) (l.map g) cs := by
  induction h with
  | nil => exact .nil
  | cons h1 _ ih => exact .cons (hr _ _ h1) ih

theorem regular_simple {known : List Str} {st : DSimple} {r : List PyClassDef × List Str} (h : simpleClasses prefixes known st = .ok r) :
    All2 (fun o c => c.Regular o) ((st.restriction.map restrictionOpening).toList ++ (if st.list then [.pass] else [])) r.1 := by
  unfold simpleClasses at h
  obtain ⟨a, ha, h⟩ := bind_eq_ok.1 h
  obtain ⟨b, hb, h⟩ := bind_eq_ok.1 h
  obtain ⟨_, _, h⟩ := bind_eq_ok.1 h
  rw [← Except.ok.inj h]
  refine All2.append ?_ ?_
  · cases hr : st.restriction with
    | none => simp only [hr] at ha; rw [← Except.ok.inj ha]; exact .nil
    | some x =>
      simp only [hr] at ha
      obtain ⟨c, hc, ha⟩ := bind_eq_ok.1 ha
      rw [← Except.ok.inj ha]
      exact .cons (regular_restriction hc) .nil
  · split at hb
    · rename_i hl
      obtain ⟨c, hc, hb⟩ := bind_eq_ok.1 hb
      rw [← Except.ok.inj hb, if_pos hl]
      unfold listClass at hc
      obtain ⟨_, _, hc⟩ := bind_eq_ok.1 hc
      rw [← Except.ok.inj hc]
      exact .cons ⟨trivial, (fun _ h => nomatch h), (fun _ h => nomatch h), fun _ => .inl (fun h => nomatch h)⟩ .nil
    · rename_i hl
      rw [← Except.ok.inj hb, if_neg hl]
      exact .nil

theorem regular_tops {known : List Str} : ∀ {l : List DTop} {r : List (List PyClassDef)}, mapE (topClasses prefixes known) l = .ok r →
    All2 (fun o c => c.Regular o) (l.filterMap fun e => e.complexType.map complexOpening) r.flatten := by
  intro l r h
  replace h := mapE_all2 h
  induction h with
  | nil => exact .nil
  | @cons e cs l r h1 _ ih =>
    unfold topClasses at h1
    rw [List.filterMap_cons, List.flatten_cons]
    cases he : e.complexType with
    | none =>
      simp only [he] at h1
      rw [← Except.ok.inj h1]
      exact ih
    | some ct =>
      simp only [he] at h1
      obtain ⟨c, hc, h1⟩ := bind_eq_ok.1 h1
      rw [← Except.ok.inj h1]
      exact .cons (regular_complex hc) ih

theorem ident_schema {digest : Str → Str} (hd : HexDigits digest) {s : Option Str} {n : Str} (h : schemaName digest s = .ok n) : Identifier n := by
  cases s with
  | none => cases h
  | some s =>
    rw [← Except.ok.inj h]
    refine ⟨?_, ⟨'S', _, rfl, rfl⟩, ?_⟩
    · intro c hc
      rcases List.mem_append.1 hc with hc | hc
      · have : ∀ c ∈ py"Schema_", isLetterC c = true ∨ isDigitC c = true := by decide
        exact this c hc
      · rcases hd s c hc with h | h
        · exact .inr h
        · have : ∀ c ∈ py"abcdef", isLetterC c = true := by decide
          exact .inl (this c h)
    · intro hk
      have : ∀ k ∈ kwlist, (py"Schema_").isPrefixOf k = false := by decide
      have h1 := this _ hk
      rw [List.isPrefixOf_iff_prefix.2 ⟨_, rfl⟩] at h1
      cases h1

theorem regular_module {digest : Str → Str} (hd : HexDigits digest) {known k : List Str} {d : DSchema} {m : PyModule} (h : schemaCode prefixes digest known d = .ok (m, k)) : m.Regular (openings d) := by
  unfold schemaCode at h
  obtain ⟨simple, h1, h⟩ := bind_eq_ok.1 h
  obtain ⟨ags, h2, h⟩ := bind_eq_ok.1 h
  obtain ⟨gs, h3, h⟩ := bind_eq_ok.1 h
  obtain ⟨complex, h4, h⟩ := bind_eq_ok.1 h
  obtain ⟨tops, h5, h⟩ := bind_eq_ok.1 h
  obtain ⟨schema, h6, h⟩ := bind_eq_ok.1 h
  have hm := congrArg Prod.fst (Except.ok.inj h)
  have hm : { classes := simple.1 ++ ags ++ gs ++ complex.1 ++ tops.flatten, schema := schema } = m := hm
  subst hm
  have hcomplex : All2 (fun o c => PyClassDef.Regular o c) (d.complexTypes.map complexOpening) complex.1 := by
    have := all2_collect (g := fun ct => [complexOpening ct]) (fun known ct r h => by
      unfold complexClasses at h
      obtain ⟨c, hc, h⟩ := bind_eq_ok.1 h
      obtain ⟨_, _, h⟩ := bind_eq_ok.1 h
      rw [← Except.ok.inj h]
      exact .cons (regular_complex hc) .nil) h4
    rw [← List.map_eq_flatMap] at this
    exact this
  unfold schemaStatement at h6
  obtain ⟨var, hv, h6⟩ := bind_eq_ok.1 h6
  obtain ⟨imports, hi, h6⟩ := bind_eq_ok.1 h6
  obtain ⟨includes, hc, h6⟩ := bind_eq_ok.1 h6
  obtain ⟨_, _, h6⟩ := bind_eq_ok.1 h6
  obtain ⟨_, _, h6⟩ := bind_eq_ok.1 h6
  obtain ⟨_, _, h6⟩ := bind_eq_ok.1 h6
  obtain ⟨_, _, h6⟩ := bind_eq_ok.1 h6
  obtain ⟨_, _, h6⟩ := bind_eq_ok.1 h6
  have h6 := Except.ok.inj h6
  subst h6
  refine ⟨?_, ident_schema hd hv, fun n hn => ?_, fun n hn => ?_⟩
  · show All2 _ (openings d) (simple.1 ++ ags ++ gs ++ complex.1 ++ tops.flatten)
    simp only [List.append_assoc]
    exact (all2_collect (fun _ _ _ h => regular_simple h) h1).append ((all2_const (mapE_all2 h2) fun _ _ h => regular_attributeGroup h).append
      ((all2_const (mapE_all2 h3) fun _ _ h => regular_groupClass h).append (hcomplex.append (regular_tops h5))))
  · obtain ⟨_, _, h⟩ := (mapE_all2 hi).mem_right hn
    exact ident_schema hd h
  · obtain ⟨_, _, h⟩ := (mapE_all2 hc).mem_right hn
    exact ident_schema hd h

end

end Soapfish
