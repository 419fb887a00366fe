import Verif.ShownClasses
import Verif.Props.Paired
import Verif.Props.RoundTripCode
/-
The classes of a program and those of the code generated from its XSD document (C104).
-/
set_option maxRecDepth 8000
namespace Soapfish

section
variable {compile : Str → Pattern} {iso : Iso} {cls top : Str → ClsId} {T : Table}

/-- **C104 (classes).** Let the XSD document of a program's schema object be serialised and read again, let Python code be
generated from it, and let the code be imported.  If the schema survives and no type loses anything, none of this fails,
and the classes of the code go together with the program's own: the ones of complex types, and the ones of elements with a
type of their own. -/
theorem C104_classes (v : Version) (D : Nat) (s : GSchema) (x x' : Xml) (digest : Str → Str) (n limit : Nat)
    (h : generateSchema v (D + 12) s = .ok x) (hb : Back x x') (hs : SchemaSurvives s limit) (hk : TypesKept s)
    (hT : Shown compile iso cls top T s) :
    ∃ d m env s' T', parseCls (specTable v) (D + 12) (D + 12) xSchema x' = .ok d ∧
      schemaToPy [some py"xsd"] digest (n + 1) none (readSchema d) = .ok m ∧
      execModule [] [] limit m = .ok (env, s') ∧ moduleTable compile iso env s' = some T' ∧
      Paired (Counterpart s cls top env.idOf) T T' ∧ T'.Sane ∧
      ∀ c c', Counterpart s cls top env.idOf c c' → Unambiguous T' c' := by
  obtain ⟨d0, d, h1, h2, h3⟩ := C82_schema v D s x x' h hb
  obtain ⟨⟨hbu, hw⟩, rfl⟩ := (C79_document v D s x).1 h
  have hd : d0 = describe s := Except.ok.inj (h1.symm.trans ((build_schema v D s).1 hbu))
  subst hd
  obtain ⟨env, s', h4, h5⟩ := execModule_ok hs digest
  obtain ⟨T', g1, g2, g3, g4, _⟩ := module_pair hs hk hT digest h4 h5
  refine ⟨d, codeModule digest s, env, s', T', h2, ?_, h4, g1, g2, g3, g4⟩
  rw [readSchema_same h3, read_schema]
  exact schemaToPy_code digest n hs.schemaOk

/-- **C104 (documents).** So the two understand each other: what the program writes with its class of a complex type, the
generated class of that name reads as an object that goes with it, and what the generated class writes, the program's class
reads. -/
theorem C104_documents (v : Version) (D : Nat) (s : GSchema) (x x' : Xml) (digest : Str → Str) (n limit : Nat)
    (h : generateSchema v (D + 12) s = .ok x) (hb : Back x x') (hs : SchemaSurvives s limit) (hk : TypesKept s)
    (hT : Shown compile iso cls top T s) (hsane : T.Sane)
    (hU : ∀ c ∈ s.complexTypes, Unambiguous T (cls c.name))
    (hO : ∀ t ∈ s.elements, ∀ c, t.type = .inst (some c) → Unambiguous T (top t.name)) :
    ∃ d m env s' T', parseCls (specTable v) (D + 12) (D + 12) xSchema x' = .ok d ∧
      schemaToPy [some py"xsd"] digest (n + 1) none (readSchema d) = .ok m ∧
      execModule [] [] limit m = .ok (env, s') ∧ moduleTable compile iso env s' = some T' ∧
      ∀ c ∈ s.complexTypes, ∀ (N : Nat) (o : Val) (tagname : Str) (ns : Option Str) (q : Bool) (y y' : Xml), Back y y' →
        (Survives T N (.complex (cls c.name)) o → toXml T N o tagname ns q = .ok y →
          ∃ w, parseCls T' N N (env.idOf c.name) y' = .ok w ∧ ValPair (Counterpart s cls top env.idOf) T T' o w) ∧
        (Survives T' N (.complex (env.idOf c.name)) o → toXml T' N o tagname ns q = .ok y →
          ∃ w, parseCls T N N (cls c.name) y' = .ok w ∧ ValPair (Counterpart s cls top env.idOf) T T' w o) := by
  obtain ⟨d, m, env, s', T', h1, h2, h3, h4, h5, h6, h7⟩ := C104_classes v D s x x' digest n limit h hb hs hk hT
  refine ⟨d, m, env, s', T', h1, h2, h3, h4, fun c hc N o tagname ns q y y' hy => ⟨fun ho hx => ?_, fun ho hx => ?_⟩⟩
  · exact C103_read h5 hsane.names h6 h7 N _ _ (.type hc) o ho tagname ns q y y' hx hy
  · have hU' : ∀ c c', Swap (Counterpart s cls top env.idOf) c c' → Unambiguous T c' := by
      intro c c' hr
      cases hr with
      | type hc => exact hU _ hc
      | own ht htt => exact hO _ ht _ htt
    obtain ⟨w, hw1, hw2⟩ := C103_read h5.swap h6.names hsane hU' N _ _ (.type hc) o ho tagname ns q y y' hx hy
    exact ⟨w, hw1, hw2.swap⟩

end

namespace Ex

/-- A schema with a simple type, a list, a keyword for a name and a type in place; types are as the constructors make
them. -/
def shownSchema : GSchema where
  targetNamespace := py"urn:a"
  simpleTypes := [{ name := py"Code", base := .builtin .string, enumeration := some [.str ['A'], .str ['B']] }]
  complexTypes :=
    [{ name := py"Op"
       elements :=
        [{ name := py"class", minOccurs := some 0, nillable := true
           type := { cls := .derived py"Code" (.builtin .string), enumeration := some [.str ['A'], .str ['B']] } },
         { name := ['b'], passedClass := false
           type := { cls := .builtin .decimal, fractionDigits := some (.int 2), minInclusive := some (.int (-5)) } }] },
     { name := py"Ops"
       elements :=
        [{ name := py"ops", tagname := some py"op", type := { cls := .complex py"Op" }, minOccurs := none
           maxOccurs := some (some .unbounded) }] }]
  elements := [{ name := py"root", type := .ofClass (.complex py"Ops") }]

theorem shownSchema_generates (v : Version) : generateSchema v 12 shownSchema = .ok (document shownSchema) := by
  cases v <;> rfl

theorem shownSchema_survives : SchemaSurvives shownSchema 3 where
  nspace := plainText_of (by decide)
  alone := ⟨rfl, rfl⟩
  names := by
    intro n hn
    have : n = py"Code" ∨ n = py"Op" ∨ n = py"Ops" := by
      simpa [moduleNames, shownSchema, capName] using hn
    rcases this with rfl | rfl | rfl
    all_goals exact className_of (by decide) (by decide) (by decide)
  distinct := by decide +kernel
  simple := by
    intro st hst
    simp only [shownSchema, List.mem_cons, List.not_mem_nil, or_false] at hst
    subst hst
    refine ⟨⟨_, rfl, by unfold CommonBuiltin; decide⟩, by simp, ?_, by simp⟩
    intro a ha
    simp only [Option.getD_some, List.mem_cons, List.not_mem_nil, or_false] at ha
    rcases ha with rfl | rfl
    · exact ⟨_, rfl, plainText_of (by decide)⟩
    · exact ⟨_, rfl, plainText_of (by decide)⟩
  complex := by
    intro c hc
    simp only [shownSchema, List.mem_cons, List.not_mem_nil, or_false] at hc
    rcases hc with rfl | rfl
    · refine ⟨rfl, by simp, ?_, by decide +kernel⟩
      intro e he
      simp only [List.mem_cons, List.not_mem_nil, or_false] at he
      rcases he with rfl | rfl
      · refine ⟨fieldName_of (c := 'c') (cs := py"lass") rfl rfl rfl (by decide), .inl ⟨rfl, ?_, .inl ⟨rfl, .inl rfl⟩⟩⟩
        exact ⟨_, List.mem_cons_self .., rfl, rfl⟩
      · refine ⟨fieldName_of (c := 'b') (cs := []) rfl rfl rfl (by decide), .inr ⟨rfl, ?_, rfl, rfl, rfl, by decide⟩⟩
        refine .decimal (fun _ h => absurd h List.not_mem_nil) (by simp) ?_ ?_ ?_ ?_ ?_ ?_ <;>
          simp [IntFacet]
    · refine ⟨rfl, by simp, ?_, by decide +kernel⟩
      intro e he
      simp only [List.mem_cons, List.not_mem_nil, or_false] at he
      subst he
      refine ⟨fieldName_of (c := 'o') (cs := ['p']) rfl rfl rfl (by decide), .inl ⟨rfl, ?_, .inr ⟨_, rfl, trivial⟩⟩⟩
      exact ⟨_, List.mem_cons_self .., rfl⟩
  tops := by
    intro t ht
    simp only [shownSchema, List.mem_cons, List.not_mem_nil, or_false] at ht
    subst ht
    exact ⟨plainText_of (by decide), by simp, _, List.mem_cons_of_mem _ (List.mem_cons_self ..), rfl⟩
  topNames := by decide +kernel
  fields := by decide +kernel
  topFields := by
    intro t ht c hc
    simp only [shownSchema, List.mem_cons, List.not_mem_nil, or_false] at ht
    subst ht
    cases hc
  grounded := by
    refine ⟨fun n => if n = py"Op" then 0 else 1, ?_, ?_, ?_⟩
    · intro n
      show (if _ then _ else _) < _
      split <;> decide
    · intro c hc e he hm n hn
      simp only [shownSchema, List.mem_cons, List.not_mem_nil, or_false] at hc
      rcases hc with rfl | rfl
      · simp only [List.mem_cons, List.not_mem_nil, or_false] at he
        rcases he with rfl | rfl <;> cases hn
      · simp only [List.mem_cons, List.not_mem_nil, or_false] at he
        subst he
        cases hn; decide
    · intro t ht c hc
      simp only [shownSchema, List.mem_cons, List.not_mem_nil, or_false] at ht
      subst ht
      cases hc

theorem shownSchema_kept : TypesKept shownSchema where
  complex := by
    intro c hc e he
    simp only [shownSchema, List.mem_cons, List.not_mem_nil, or_false] at hc
    rcases hc with rfl | rfl
    · simp only [List.mem_cons, List.not_mem_nil, or_false] at he
      rcases he with rfl | rfl
      · refine ⟨fun b hb => (nomatch hb), fun st hst b hb hd => ?_⟩
        simp only [shownSchema, List.mem_cons, List.not_mem_nil, or_false] at hst
        subst hst
        cases hb
        exact .text (by simp)
      · unfold TypeKept
        rw [if_neg (by simp)]
        simp [InPlaceKept, Present, Blank]
    · simp only [List.mem_cons, List.not_mem_nil, or_false] at he
      subst he
      exact ⟨fun b hb => (nomatch hb), fun st hst b hb hd => (nomatch hd)⟩
  own := by
    intro t ht c hc
    simp only [shownSchema, List.mem_cons, List.not_mem_nil, or_false] at ht
    subst ht
    cases hc

section
variable (compile : Str → Pattern) (iso : Iso)

/-- The program's own classes: `Op` is class 5, `Ops` class 6. -/
def shownTable : Table
  | 5 => { name := py"Op", mro := [5], schema := some ⟨some py"urn:a", false⟩, fields := [
      { name := py"class", kind := .element, type := .simple (.string { enumeration := [['A'], ['B']] }), required := false
        nillable := true },
      { name := ['b'], kind := .element
        type := .simple (.decimal { fractionDigits := some 2, minInclusive := some (.int (-5)) }) }] }
  | 6 => { name := py"Ops", mro := [6], schema := some ⟨some py"urn:a", false⟩, fields := [
      { name := py"ops", kind := .list, type := .complex 5, tagname := some py"op", maxOccurs := some .unbounded }] }
  | n => { name := py"Other", mro := [n], fields := [] }

def shownCls (n : Str) : ClsId := if n = py"Op" then 5 else 6

theorem shown : Shown compile iso shownCls shownCls shownTable shownSchema where
  complex := by
    intro c hc
    simp only [shownSchema, List.mem_cons, List.not_mem_nil, or_false] at hc
    rcases hc with rfl | rfl
    · refine ⟨.cons ?_ (.cons ?_ .nil), by decide, rfl, rfl, rfl⟩
      · exact ⟨rfl, rfl, rfl, .simple (by simp) rfl, ⟨rfl, rfl⟩, .inl ⟨rfl, rfl, by decide, rfl, rfl⟩⟩
      · exact ⟨rfl, rfl, rfl, .simple (by simp) rfl, ⟨rfl, rfl⟩, .inl ⟨rfl, rfl, by decide, rfl, rfl⟩⟩
    · refine ⟨.cons ?_ .nil, by decide, rfl, rfl, rfl⟩
      exact ⟨rfl, rfl, rfl, .complex (cls := shownCls) (n := py"Op") rfl, ⟨rfl, rfl⟩, .inr ⟨rfl, rfl, rfl, _, rfl, rfl⟩⟩
  own := by
    intro t ht c hc
    simp only [shownSchema, List.mem_cons, List.not_mem_nil, or_false] at ht
    subst ht
    cases hc

theorem shown_sane : shownTable.Sane where
  names := by
    intro c
    match c with
    | 0 | 1 | 2 | 3 | 4 | 5 | 6 => decide
    | n + 7 => exact List.Pairwise.nil
  self := by
    intro c
    match c with
    | 0 | 1 | 2 | 3 | 4 | 5 | 6 => decide
    | n + 7 => simp [shownTable]
  defaults := by
    intro c f c' hf ht
    refine .inr ?_
    have : f.default = Val.none := by
      match c with
      | 0 | 1 | 2 | 3 | 4 | 5 | 6 =>
        simp [shownTable] at hf
        try (first | subst hf; rfl | rcases hf with rfl | rfl <;> rfl)
      | n + 7 => simp [shownTable] at hf
    rw [this]; exact .none

theorem shown_unambiguous : ∀ c ∈ shownSchema.complexTypes, Unambiguous shownTable (shownCls c.name) := by
  intro c hc n
  simp only [shownSchema, List.mem_cons, List.not_mem_nil, or_false] at hc
  match n with
  | 0 => exact .nil
  | n + 1 =>
    rcases hc with rfl | rfl
    · refine .cons ?_ (.cons (by simp) .nil)
      intro g hg
      have : g = { name := ['b'], kind := .element
                   type := .simple (.decimal { fractionDigits := some 2, minInclusive := some (.int (-5)) }) } := by
        revert hg; exact fun h => by simpa [flat, shownTable, shownCls] using h
      subst this
      simp [Clash, Field.writtenName]
    · exact .cons (by simp) .nil

/-- The classes of this program and the generated ones read each other's documents. -/
example (v : Version) (x' : Xml) (hb : Back (document shownSchema) x') : ∃ d m env s' T',
    parseCls (specTable v) 12 12 xSchema x' = .ok d ∧
    schemaToPy [some py"xsd"] (fun _ => py"abcde") 1 none (readSchema d) = .ok m ∧
    execModule [] [] 3 m = .ok (env, s') ∧ moduleTable compile iso env s' = some T' ∧
    ∀ (N : Nat) (o : Val) (tagname : Str) (ns : Option Str) (q : Bool) (y y' : Xml), Back y y' →
      Survives shownTable N (.complex 6) o → toXml shownTable N o tagname ns q = .ok y →
        ∃ w, parseCls T' N N (env.idOf py"Ops") y' = .ok w ∧
          ValPair (Counterpart shownSchema shownCls shownCls env.idOf) shownTable T' o w := by
  obtain ⟨d, m, env, s', T', h1, h2, h3, h4, h5⟩ := C104_documents (compile := compile) (iso := iso) v 0 shownSchema _ _
    (fun _ => py"abcde") 0 3 (shownSchema_generates v) hb shownSchema_survives shownSchema_kept (shown compile iso) shown_sane
    shown_unambiguous (by
      intro t ht c hc
      simp only [shownSchema, List.mem_cons, List.not_mem_nil, or_false] at ht
      subst ht
      cases hc)
  exact ⟨d, m, env, s', T', h1, h2, h3, h4, fun N o tagname ns q y y' hy ho hx =>
    (h5 _ (List.mem_cons_of_mem _ List.mem_cons_self) N o tagname ns q y y' hy).1 ho hx⟩

end

/-! ### What is lost -/

/-- A class with a field `Decimal(minInclusive=0)`. -/
def zeroSchema : GSchema where
  targetNamespace := py"urn:a"
  complexTypes := [{ name := py"Op", elements := [
    { name := ['b'], passedClass := false, type := { cls := .builtin .decimal, minInclusive := some (.int 0) } }] }]

theorem zeroSchema_survives : SchemaSurvives zeroSchema 1 where
  nspace := plainText_of (by decide)
  alone := ⟨rfl, rfl⟩
  names := by
    intro n hn
    have : n = py"Op" := by
      simpa [moduleNames, zeroSchema, capName] using hn
    subst this
    exact className_of (by decide) (by decide) (by decide)
  distinct := by decide +kernel
  simple := by intro st hst; cases hst
  complex := by
    intro c hc
    simp only [zeroSchema, List.mem_cons, List.not_mem_nil, or_false] at hc
    subst hc
    refine ⟨rfl, by simp, ?_, by decide +kernel⟩
    intro e he
    simp only [List.mem_cons, List.not_mem_nil, or_false] at he
    subst he
    refine ⟨fieldName_of (c := 'b') (cs := []) rfl rfl rfl (by decide), .inr ⟨rfl, ?_, rfl, rfl, rfl, by decide⟩⟩
    refine .decimal (fun _ h => absurd h List.not_mem_nil) (by simp) ?_ ?_ ?_ ?_ ?_ ?_ <;>
      simp [IntFacet]
  tops := by intro t ht; cases ht
  topNames := by decide +kernel
  fields := by decide +kernel
  topFields := by intro t ht; cases ht
  grounded := by
    refine ⟨fun n => 0, ?_, ?_, ?_⟩
    · exact fun _ => Nat.zero_lt_one
    · intro c hc e he hm n hn
      simp only [zeroSchema, List.mem_cons, List.not_mem_nil, or_false] at hc
      subst hc
      simp only [List.mem_cons, List.not_mem_nil, or_false] at he
      subst he; cases hn
    · intro t ht; cases ht

/-- **C104 (lost).** A bound of zero that is given in place is not in the XSD document, so that the generated code does not
know of it: the program refuses -1 in this field, the generated class accepts it. -/
theorem C104_zero (compile : Str → Pattern) (iso : Iso) (v : Version) (x x' : Xml) (h : generateSchema v 12 zeroSchema = .ok x)
    (hb : Back x x') : ∃ d m env s' T' k t t', parseCls (specTable v) 12 12 xSchema x' = .ok d ∧
      schemaToPy [some py"xsd"] (fun _ => py"abcde") 1 none (readSchema d) = .ok m ∧
      execModule [] [] 1 m = .ok (env, s') ∧ moduleTable compile iso env s' = some T' ∧
      zeroSchema.complexTypes.map (·.elements.map fun e => e.type.stype compile iso) = [[some t]] ∧
      T' (env.idOf py"Op") = k ∧ k.fields.map (·.type) = [.simple t'] ∧
      t.accept (.int (-1)) = .error .valueError ∧ t'.accept (.int (-1)) = .ok (.int (-1)) := by
  obtain ⟨d0, d, h1, h2, h3⟩ := C82_schema v 0 zeroSchema x x' h hb
  obtain ⟨⟨hbu, hw⟩, rfl⟩ := (C79_document v 0 zeroSchema x).1 h
  have hd : d0 = describe zeroSchema := Except.ok.inj (h1.symm.trans ((build_schema v 0 zeroSchema).1 hbu))
  subst hd
  refine ⟨d, codeModule (fun _ => py"abcde") zeroSchema, _, _, _, _, .decimal { minInclusive := some (.int 0) }, .decimal {},
    h2, ?_, rfl, rfl, rfl, rfl, rfl, by rfl, by rfl⟩
  rw [readSchema_same h3, read_schema]
  exact schemaToPy_code _ 0 zeroSchema_survives.schemaOk

end Ex

end Soapfish
