import Verif.RunSchema
import Verif.Props.Wsdl
/-
The way from a schema object to an XSD document, to generated code and to the schema object in that code: C85.
-/
set_option maxRecDepth 8000
namespace Soapfish

/-- **C85 (round trip).** Let the XSD document of a schema object be serialised and read again, let Python code be
generated from it, and let the code be imported.  If the schema survives, none of this fails, and the XSD document
generated from the schema object in the code is the one at the start. -/
theorem C85_roundtrip (v : Version) (D : Nat) (s : GSchema) (x x' : Xml) (digest : Str → Str) (n limit : Nat)
    (h : generateSchema v (D + 12) s = .ok x) (hb : Back x x') (hs : SchemaSurvives s limit) :
    ∃ d m env s', parseCls (specTable v) (D + 12) (D + 12) xSchema x' = .ok d ∧
      schemaToPy [some py"xsd"] digest (n + 1) none (readSchema d) = .ok m ∧
      execModule [] [] limit m = .ok (env, s') ∧ generateSchema v (D + 12) s' = .ok x := by
  obtain ⟨d0, d, h1, h2, h3⟩ := C82_schema v D s x x' h hb
  obtain ⟨⟨hbu, hw⟩, rfl⟩ := (C79_document v D s x).1 h
  have hd : d0 = describe s := Except.ok.inj (h1.symm.trans ((build_schema v D s).1 hbu))
  subst hd
  obtain ⟨env, s', h4, h5⟩ := execModule_ok hs digest
  refine ⟨d, codeModule digest s, env, s', h2, ?_, h4, ?_⟩
  · rw [readSchema_same h3, read_schema]
    exact schemaToPy_code digest n hs.schemaOk
  · refine (C79_document v D s' _).2 ⟨⟨h5.buildable hbu, h5.writable hw⟩, ?_⟩
    exact (h5.doc hs.alone).symm

/-- **C85 (names).** In the classes of that code the fields have the names of the elements, keywords with an underscore in
front; the classes and the elements of the schema have the names they had, in the same order. -/
theorem C85_names (v : Version) (D : Nat) (s : GSchema) (x x' : Xml) (digest : Str → Str) (n limit : Nat)
    (h : generateSchema v (D + 12) s = .ok x) (hb : Back x x') (hs : SchemaSurvives s limit) (d : Val) (m : PyModule)
    (env : PyEnv) (s' : GSchema) (hd : parseCls (specTable v) (D + 12) (D + 12) xSchema x' = .ok d)
    (hm : schemaToPy [some py"xsd"] digest (n + 1) none (readSchema d) = .ok m)
    (he : execModule [] [] limit m = .ok (env, s')) :
    s'.simpleTypes.map (·.name) = s.simpleTypes.map (·.name) ∧
    s'.elements.map (·.name) = s.elements.map (·.name) ∧
    (s'.complexTypes.map fun c => (c.name, c.elements.map (·.name))) =
      s.complexTypes.map fun c => (c.name, c.elements.map fun e => pyName e.written) := by
  obtain ⟨d0, d', h1, h2, h3⟩ := C82_schema v D s x x' h hb
  obtain ⟨⟨hbu, hw⟩, rfl⟩ := (C79_document v D s x).1 h
  have hd0 : d0 = describe s := Except.ok.inj (h1.symm.trans ((build_schema v D s).1 hbu))
  subst hd0
  have hdd : d' = d := Except.ok.inj (h2.symm.trans hd)
  subst hdd
  rw [readSchema_same h3, read_schema, schemaToPy_code digest n hs.schemaOk] at hm
  have hmm := Except.ok.inj hm
  subst hmm
  obtain ⟨env', s'', h4, h5⟩ := execModule_ok hs digest
  rw [h4] at he
  obtain ⟨_, rfl⟩ := Prod.mk.inj (Except.ok.inj he)
  refine ⟨?_, ?_, ?_⟩
  · exact all2_map h5.simpleTypes fun _ _ h => h.name
  · exact all2_map h5.elements fun _ _ h => h.name
  · exact all2_map h5.complexTypes fun c c' h => by rw [h.1, all2_map h.2.elements fun _ _ h => h.name]

namespace Ex

/-- A schema with a simple type, a list, a choice, a keyword for a name, a type in place, and two elements. -/
def roundSchema : GSchema where
  targetNamespace := py"urn:a"
  simpleTypes := [{ name := py"Code", base := .builtin .string, enumeration := some [.str ['A'], .str ['B']] }]
  complexTypes :=
    [{ name := py"Ops"
       elements :=
        [{ name := ['a'], type := { cls := .builtin (.int .int) } },
         { name := py"class", type := { cls := .derived py"Code" (.builtin .string) }, minOccurs := some 0
           nillable := true },
         { name := ['b'], passedClass := false
           type := { cls := .builtin .decimal, fractionDigits := some (.int 2), minInclusive := some (.int (-5)) } }] },
     { name := py"Two", indicator := some .choice
       elements :=
        [{ name := py"os", tagname := some ['o'], type := { cls := .complex py"Ops" }, minOccurs := none
           maxOccurs := some (some .unbounded) },
         { name := ['p'], type := { cls := .complex py"Ops" } }] }]
  elements :=
    [{ name := py"root", type := .ofClass (.complex py"Two"), substitutionGroup := some ['g'] },
     { name := py"other", type := .inst (some { name := py"Whatever", elements :=
        [{ name := ['x'], type := { cls := .complex py"Two" } }] }) }]

theorem fieldName_of {c : Char} {cs : Str} (h1 : (c :: cs).all (fun d => isLetterC d || isDigitC d) = true)
    (h2 : isDigitC c = false) (h3 : startsWith py"__" (c :: cs) = false) (h4 : (c :: cs) ∉ [py"INDICATOR", py"INHERITANCE",
    py"SCHEMA", py"accept", py"_meta", py"_find_field", py"_force_elements_type_evalution",
    py"render", py"parse_xmlelement", py"xml", py"parsexml", py"_xmlelement", py"_is_matching_element", py"_find_subelement",
    py"xsd", py"classmethod", py"create", py"cls"]) : FieldName (c :: cs) := by
  have key : ∀ d, (isLetterC d || isDigitC d) = true → IdentChar d := by
    intro d hd
    simp only [isLetterC, isDigitC, Bool.or_eq_true, decide_eq_true_eq] at hd
    unfold IdentChar
    rcases hd with (h | h | h) | h
    · exact .inl h
    · exact .inr (.inl h)
    · exact .inr (.inr (.inl h))
    · exact .inr (.inr (.inr h))
  rw [List.all_eq_true] at h1
  refine ⟨⟨c, cs, rfl, key c (h1 c (List.mem_cons_self ..)), ?_, fun d hd => key d (h1 d (List.mem_cons_of_mem _ hd))⟩, ?_, h4⟩
  · simpa [isDigitC] using h2
  · intro h
    rw [show startsWith py"__" (c :: cs) = true from List.isPrefixOf_iff_prefix.2 h] at h3
    cases h3

theorem roundSchema_generates (v : Version) : generateSchema v 12 roundSchema = .ok (document roundSchema) := by
  cases v <;> rfl

theorem plainText_of {q : Char} {t : Str}
    (h : t.all (fun c => c ≠ q && c ≠ '\\' && c ≠ '\n' && c ≠ '\r' && c ≠ Char.ofNat 0) = true) : PlainText q t := by
  intro c hc
  have := List.all_eq_true.1 h c hc
  simpa [and_assoc] using this

theorem className_of {c : Char} {cs : Str} (h1 : decide ('A' ≤ c ∧ c ≤ 'Z') = true)
    (h2 : cs.all (fun d => isLetterC d || isDigitC d) = true) (h3 : (c :: cs) ∉ [py"None", py"True", py"False"]) :
    ClassName (c :: cs) := by
  refine ⟨⟨c, cs, rfl, of_decide_eq_true h1, ?_⟩, h3⟩
  intro d hd
  have hd := List.all_eq_true.1 h2 d hd
  simp only [isLetterC, isDigitC, Bool.or_eq_true, decide_eq_true_eq] at hd
  unfold IdentChar
  rcases hd with (h | h | h) | h
  · exact .inl h
  · exact .inr (.inl h)
  · exact .inr (.inr (.inl h))
  · exact .inr (.inr (.inr h))

theorem ops_survives : ∀ c ∈ roundSchema.complexTypes, ComplexSurvives roundSchema c := by
  intro c hc
  simp only [roundSchema, List.mem_cons, List.not_mem_nil, or_false] at hc
  rcases hc with rfl | rfl
  · refine ⟨rfl, by simp, ?_, by decide +kernel⟩
    intro e he
    simp only [List.mem_cons, List.not_mem_nil, or_false] at he
    rcases he with rfl | rfl | rfl
    · refine ⟨fieldName_of (c := 'a') (cs := []) rfl rfl rfl (by decide), .inl ⟨rfl, ?_, .inl ⟨rfl, .inr rfl⟩⟩⟩
      show CommonBuiltin _
      unfold CommonBuiltin
      decide
    · refine ⟨fieldName_of (c := 'c') (cs := py"lass") rfl rfl rfl (by decide), .inl ⟨rfl, ?_, .inl ⟨rfl, .inl rfl⟩⟩⟩
      exact ⟨_, List.mem_cons_self .., rfl, rfl⟩
    · refine ⟨fieldName_of (c := 'b') (cs := []) rfl rfl rfl (by decide), .inr ⟨rfl, ?_, rfl, rfl, rfl, by decide⟩⟩
      refine .decimal (fun _ h => absurd h List.not_mem_nil) (by simp) ?_ ?_ ?_ ?_ ?_ ?_ <;>
        simp [IntFacet]
  · refine ⟨rfl, by simp, ?_, by decide +kernel⟩
    intro e he
    simp only [List.mem_cons, List.not_mem_nil, or_false] at he
    rcases he with rfl | rfl
    · refine ⟨fieldName_of (c := 'o') (cs := []) rfl rfl rfl (by decide), .inl ⟨rfl, ?_, .inr ⟨_, rfl, trivial⟩⟩⟩
      exact ⟨_, List.mem_cons_self .., rfl⟩
    · refine ⟨fieldName_of (c := 'p') (cs := []) rfl rfl rfl (by decide), .inl ⟨rfl, ?_, .inl ⟨rfl, .inr rfl⟩⟩⟩
      exact ⟨_, List.mem_cons_self .., rfl⟩

/-- The schema survives: 'Ops' is below 'Two', which is below 'Other'. -/
theorem roundSchema_survives : SchemaSurvives roundSchema 3 where
  nspace := plainText_of (by decide)
  alone := ⟨rfl, rfl⟩
  names := by
    intro n hn
    have : n = py"Code" ∨ n = py"Ops" ∨ n = py"Two" ∨ n = py"Other" := by
      simpa [moduleNames, roundSchema, capName] using hn
    rcases this with rfl | rfl | rfl | rfl
    all_goals exact className_of (by decide) (by decide) (by decide)
  distinct := by decide +kernel
  simple := by
    intro st hst
    simp only [roundSchema, List.mem_cons, List.not_mem_nil, or_false] at hst
    subst hst
    refine ⟨⟨_, rfl, by unfold CommonBuiltin; decide⟩, by simp, ?_, by simp⟩
    intro a ha
    simp only [Option.getD_some, List.mem_cons, List.not_mem_nil, or_false] at ha
    rcases ha with rfl | rfl
    · exact ⟨_, rfl, plainText_of (by decide)⟩
    · exact ⟨_, rfl, plainText_of (by decide)⟩
  complex := ops_survives
  tops := by
    intro t ht
    simp only [roundSchema, List.mem_cons, List.not_mem_nil, or_false] at ht
    rcases ht with rfl | rfl
    · refine ⟨plainText_of (by decide), ?_, ?_⟩
      · intro g hg
        cases hg
        exact plainText_of (by decide)
      · exact ⟨_, List.mem_cons_of_mem _ (List.mem_cons_self ..), rfl⟩
    · refine ⟨plainText_of (by decide), by simp, rfl, by simp, ?_, by decide +kernel⟩
      intro e he
      simp only [List.mem_cons, List.not_mem_nil, or_false] at he
      subst he
      refine ⟨fieldName_of (c := 'x') (cs := []) rfl rfl rfl (by decide), .inl ⟨rfl, ?_, .inl ⟨rfl, .inr rfl⟩⟩⟩
      exact ⟨_, List.mem_cons_of_mem _ (List.mem_cons_self ..), rfl⟩
  topNames := by decide +kernel
  fields := by decide +kernel
  topFields := by
    intro t ht c hc
    simp only [roundSchema, List.mem_cons, List.not_mem_nil, or_false] at ht
    rcases ht with rfl | rfl
    · cases hc
    · cases hc
      decide +kernel
  grounded := by
    refine ⟨fun n => if n = py"Ops" then 0 else if n = py"Two" then 1 else 2, ?_, ?_, ?_⟩
    · intro n
      show (if _ then _ else _) < _
      split
      · decide
      · split <;> decide
    · intro c hc e he hm n hn
      simp only [roundSchema, List.mem_cons, List.not_mem_nil, or_false] at hc
      rcases hc with rfl | rfl
      · simp only [List.mem_cons, List.not_mem_nil, or_false] at he
        rcases he with rfl | rfl | rfl <;> cases hn
      · simp only [List.mem_cons, List.not_mem_nil, or_false] at he
        rcases he with rfl | rfl
        · cases hn; decide
        · cases hn; decide
    · intro t ht c hc e he hm n hn
      simp only [roundSchema, List.mem_cons, List.not_mem_nil, or_false] at ht
      rcases ht with rfl | rfl
      · cases hc
      · cases hc
        simp only [List.mem_cons, List.not_mem_nil, or_false] at he
        subst he
        cases hn
        decide

/-- The round trip of this schema. -/
example (v : Version) (x' : Xml) (hb : Back (document roundSchema) x') : ∃ d m env s',
    parseCls (specTable v) 12 12 xSchema x' = .ok d ∧
    schemaToPy [some py"xsd"] (fun _ => py"abcde") 1 none (readSchema d) = .ok m ∧
    execModule [] [] 3 m = .ok (env, s') ∧ generateSchema v 12 s' = .ok (document roundSchema) :=
  C85_roundtrip v 0 roundSchema _ _ _ 0 3 (roundSchema_generates v) hb roundSchema_survives

end Ex

end Soapfish
