import Verif.Spec.Published
import Verif.ShownClasses
/-
Lemmas for C107: the XSD document of an enforced schema object is one whose rules are checked.
-/
namespace Soapfish

theorem capName_refName {n : Str} (h : ClassName n) : capName (refName n) = n := by
  have := capitalize_refName h
  cases hr : refName n with
  | nil => exact absurd hr (refName_ne_nil h)
  | cons c cs =>
    rw [hr] at this
    exact Except.ok.inj this

theorem sns_qualified {n : Str} (h : ClassName n) : Qualified (py"sns:" ++ refName n) (some py"sns") (refName n) :=
  .prefixed (p := py"sns") (by decide) (colon_refName h)

theorem typeRef_ne (t : TypeCls) : typeRef t ≠ [] := by
  cases t with
  | builtin b =>
    cases b with
    | int k => cases k <;> (intro h; cases h)
    | _ => intro h; cases h
  | derived n base => cases base <;> (intro h; cases h)
  | _ => intro h; cases h

/-- References to built-in types. -/
theorem builtin_qualified {b : Builtin}
    (h : b ∈ [.string, .anyURI, .boolean, .date, .time, .dateTime, .decimal, .double, .float] ∨ ∃ k, b = .int k)
    (hc : CommonBuiltin b) : ∃ l, Qualified (builtinRef b) (some py"xsd") l ∧ capName l = b.clsName := by
  have key : ∀ l, ':' ∉ l → builtinRef b = py"xsd:" ++ l → capName l = b.clsName →
      ∃ l, Qualified (builtinRef b) (some py"xsd") l ∧ capName l = b.clsName := fun l h1 h2 h3 =>
    ⟨l, h2 ▸ .prefixed (p := py"xsd") (by decide) h1, h3⟩
  rcases h with h | ⟨k, rfl⟩
  · simp only [List.mem_cons, List.not_mem_nil, or_false] at h
    rcases h with rfl | rfl | rfl | rfl | rfl | rfl | rfl | rfl | rfl
    · exact key py"string" (by decide) rfl rfl
    · exact key py"anyURI" (by decide) rfl rfl
    · exact key py"boolean" (by decide) rfl rfl
    · exact key py"date" (by decide) rfl rfl
    · exact key py"time" (by decide) rfl rfl
    · exact key py"dateTime" (by decide) rfl rfl
    · exact key py"decimal" (by decide) rfl rfl
    · exact key py"double" (by decide) rfl rfl
    · exact key py"float" (by decide) rfl rfl
  · cases k
    · exact key py"integer" (by decide) rfl rfl
    · exact absurd hc (by unfold CommonBuiltin; decide)
    · exact absurd hc (by unfold CommonBuiltin; decide)
    · exact absurd hc (by unfold CommonBuiltin; decide)
    · exact absurd hc (by unfold CommonBuiltin; decide)
    · exact key py"long" (by decide) rfl rfl
    · exact key py"int" (by decide) rfl rfl
    · exact key py"short" (by decide) rfl rfl
    · exact key py"byte" (by decide) rfl rfl
    · exact key py"unsignedLong" (by decide) rfl rfl
    · exact key py"unsignedInt" (by decide) rfl rfl
    · exact key py"unsignedShort" (by decide) rfl rfl
    · exact key py"unsignedByte" (by decide) rfl rfl

/-- What the document says of a simple type that restricts texts. -/
theorem simple_checked {s : GSchema} {limit : Nat} (hs : SchemaSurvives s limit) {st : GSimple} (hst : st ∈ s.simpleTypes)
    (hb : st.base = .builtin .string ∨ st.base = .builtin .anyURI) :
    CheckedType [some py"xsd"] (schemaOf s) (py"sns:" ++ refName st.name) := by
  have hn : ClassName st.name := hs.names _ (by
    unfold moduleNames
    exact List.mem_append_left _ (List.mem_append_left _ (List.mem_map.2 ⟨st, hst, rfl⟩)))
  have hss := hs.simple st hst
  obtain ⟨b, l, hb', hl1, hl2, hl3⟩ : ∃ (b : Builtin) (l : Str), b ∈ [Builtin.string, .anyURI] ∧ ':' ∉ l ∧
      typeRef st.base = py"xsd:" ++ l ∧ capName l = b.clsName := by
    rcases hb with h | h <;> rw [h]
    · exact ⟨.string, py"string", by decide, by decide, rfl, rfl⟩
    · exact ⟨.anyURI, py"anyURI", by decide, by decide, rfl, rfl⟩
  have hfd : facetText st.fractionDigits = none := by
    cases hf : st.fractionDigits with
    | none => rfl
    | some a =>
      have := hss.digits a hf
      unfold facetText
      simp only
      rw [if_pos this]
  have hfs : facetsOfSimple st = { pattern := facetText (st.pattern.map .str) } := by
    unfold facetsOfSimple
    rw [hfd]
  have hmem : simpleOf st ∈ (schemaOf s).simpleTypes := List.mem_map.2 ⟨st, hst, rfl⟩
  have hd : DerivedBy [some py"xsd"] (schemaOf s) (capName (refName st.name)) b
      [restrictionOf (typeRef st.base) (st.enumeration.getD []) (facetsOfSimple st)] :=
    .first (p := some py"xsd") hmem rfl rfl rfl (hl2 ▸ Qualified.prefixed (p := py"xsd") (l := l) (by decide) hl1) (by simp) hl3
  refine .derived (sns_qualified hn) (by decide) hd hb' ?_ ?_ ?_
  · rw [hfs]
    exact ⟨⟨rfl, rfl, rfl, rfl, rfl, rfl⟩, rfl, rfl, rfl, rfl⟩
  · rw [hfs]
    refine ⟨fun e he => ?_, fun p hp => ?_⟩
    · obtain ⟨a, ha, rfl⟩ := List.mem_map.1 he
      obtain ⟨t, rfl, ht⟩ := hss.enumeration a ha
      exact ⟨t, rfl, ht⟩
    · cases hpt : st.pattern with
      | none => rw [hpt] at hp; cases hp
      | some q =>
        rw [hpt] at hp
        have hp : (facetText (some (Atom.str q))).map some = some p := hp
        unfold facetText at hp
        simp only at hp
        split at hp
        · cases hp
        · exact ⟨q, (Option.some.inj hp).symm, hss.pattern q hpt⟩
  · rw [hfs]
    show (facetText (st.pattern.map .str)).map some ≠ some (some [])
    cases hpt : st.pattern with
    | none => simp [facetText]
    | some q =>
      unfold facetText
      simp only [Option.map_some]
      split
      · simp
      · rename_i hq
        intro h
        simp only [Option.map_some, Option.some.injEq] at h
        exact hq h

/-- The document's rules are all checked by generated code. -/
theorem checked_document {s : GSchema} {limit : Nat} (hs : SchemaSurvives s limit) (he : Enforced s) :
    CheckedDocument [some py"xsd"] (schemaOf s) := by
  have own : ∀ ct ∈ (schemaOf s).complexTypes, ∀ cs, Layers [some py"xsd"] (schemaOf s) ct cs →
      ∃ c ∈ s.complexTypes, cs = [contentOf c] := by
    intro ct hct cs hl
    obtain ⟨c, hc, rfl⟩ := List.mem_map.1 hct
    cases hl with
    | own => exact ⟨c, hc, rfl⟩
    | extension h => cases h
  refine ⟨fun ct hct => ?_, fun ct hct cs hl => ?_⟩
  · obtain ⟨c, hc, rfl⟩ := List.mem_map.1 hct
    exact ⟨rfl, _, .own rfl⟩
  · obtain ⟨c, hc, rfl⟩ := own ct hct cs hl
    have hcs := hs.complex c hc
    have hord := he.order c hc
    have hels : (contentOf c).elements = c.elements.map elementOf := by
      unfold contentOf DContent.elements
      simp only [hord, if_true]
      rfl
    have hatt : (contentOf c).attributes = [] := by
      unfold contentOf
      rw [hcs.attributes]; rfl
    have htype : ∀ e ∈ c.elements, (elementOf e).type = some (typeRef e.type.cls) ∧ (elementOf e).simpleType = none := by
      intro e hem
      unfold elementOf
      simp only [((he.elements c hc e hem).type).1, if_true, and_self]
    have hnames : layerNames [contentOf c] = c.elements.map fun e => pyName e.written := by
      unfold layerNames DContent.fieldNames
      simp only [List.map_cons, List.map_nil, List.flatten_cons, List.flatten_nil, List.append_nil]
      rw [hatt, hels]
      have : (c.elements.map elementOf).filter (·.typed) = c.elements.map elementOf := by
        rw [List.filter_eq_self]
        intro d hd
        obtain ⟨e, hem, rfl⟩ := List.mem_map.1 hd
        unfold DElement.typed
        rw [(htype e hem).1]; rfl
      rw [this]
      simp only [List.filterMap_nil, List.nil_append, List.filterMap_map]
      rw [show ((fun x : DElement => x.name) ∘ elementOf) = some ∘ fun e => e.written from rfl, List.filterMap_eq_map, List.map_map]
      rfl
    refine ⟨?_, ?_, ?_, ?_, ?_⟩
    · intro c' hc'
      rw [List.mem_singleton.1 hc']
      refine ⟨rfl, by rw [hatt]; simp, ?_⟩
      rw [hels]
      intro d hd
      obtain ⟨e, hem, rfl⟩ := List.mem_map.1 hd
      refine ⟨rfl, rfl, ?_, ?_⟩
      · rw [(htype e hem).1]
        exact fun h => typeRef_ne _ (Option.some.inj h)
      · rw [(htype e hem).2]; simp
    · intro c' hc'
      rw [List.mem_singleton.1 hc']
      unfold contentOf
      simp only [hord]
      exact ⟨if_neg (by decide), if_neg (by decide)⟩
    · rw [hnames]
      refine ⟨hcs.distinct, fun h => ?_⟩
      obtain ⟨e, hem, hc⟩ := List.mem_map.1 h
      have hf := (hcs.elements e hem).1
      unfold pyName at hc
      split at hc
      · cases hc
      · exact hf.2.2 (by rw [hc]; decide)
    · intro c' hc'
      rw [List.mem_singleton.1 hc', hatt]
      simp
    · intro c' hc'
      rw [List.mem_singleton.1 hc', hels]
      intro d hd
      obtain ⟨e, hem, rfl⟩ := List.mem_map.1 hd
      have hee := he.elements c hc e hem
      obtain ⟨hpc, htr, hoc⟩ : e.passedClass = true ∧ TypeSurvives s e.type.cls ∧ (e.Single ∨ e.Many) := by
        rcases (hcs.elements e hem).2 with h | h
        · exact h
        · rw [hee.type.1] at h; cases h.1
      refine ⟨?_, _, (htype e hem).1, ?_⟩
      · rcases hoc with ⟨h1, h2⟩ | ⟨b, h1, h2⟩
        · refine .inr ⟨.inl h1, h2.elim (fun h => .inr (.inl h)) fun h => .inr (.inr h)⟩
        · refine .inl ⟨⟨b, ?_, h2⟩, hee.occurs⟩
          unfold elementOf
          rw [h1]; rfl
      · have hte := hee.type.2
        generalize e.type.cls = t at htr hte
        cases t with
        | builtin b =>
          obtain ⟨l, h1, h2⟩ := builtin_qualified hte htr
          exact .inl (.builtin h1 (by simp) h2 hte)
        | derived n base =>
          obtain ⟨st, hst, rfl, rfl⟩ := htr
          have hte : st.base = .builtin .string ∨ st.base = .builtin .anyURI := hte
          refine .inl ?_
          have : typeRef (.derived st.name st.base) = py"sns:" ++ refName st.name := by
            rcases hte with h | h <;> rw [h] <;> rfl
          rw [this]
          exact simple_checked hs hst hte
        | complex n =>
          obtain ⟨c', hc', rfl⟩ := htr
          have hn : ClassName c'.name := hs.names _ (by
            unfold moduleNames
            exact List.mem_append_left _ (List.mem_append_right _ (List.mem_map.2 ⟨c', hc', rfl⟩)))
          exact .inr ⟨_, _, sns_qualified hn, by decide, _, List.mem_map.2 ⟨c', hc', rfl⟩, rfl⟩
        | simpleType => cases hte

end Soapfish
