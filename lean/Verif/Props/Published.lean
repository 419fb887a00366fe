import Verif.PublishedKnown
import Verif.PublishedLemmas
import Verif.Props.Shown
import Verif.Props.CodeReads
/-
What the XSD document of a program says about the documents the program writes and reads (C107).
-/
set_option maxRecDepth 8000
namespace Soapfish
open Spec

section
variable {compile : Str → Pattern} {iso : Iso} {cls top : Str → ClsId} {T : Table}

theorem known_pair {R : ClsId → ClsId → Prop} {T T' : Table} (hP : Paired R T T') : ∀ {c x}, Known T c x → ∀ c', R c c' →
    Known T' c' x
  | _, _, .mk h1 h2, c', hr => by
    have hf := (hP _ _ hr).fields
    refine .mk (fun q as t ks h => ?_) fun q as t ks f' d' h hf' hk hq hd => ?_
    · obtain ⟨f, hfm, hk, hq⟩ := h1 q as t ks h
      obtain ⟨f', hf', hp⟩ := hf.mem_left hfm
      exact ⟨f', hf', hp.kind ▸ hk, hp.written ▸ hq⟩
    · obtain ⟨f, hfm, hp⟩ := hf.mem_right hf'
      have ht := hp.type
      rw [hd] at ht
      generalize hft : f.type = ty at ht
      cases ht with
      | complex hrd => exact known_pair hP (h2 q as t ks f _ h hfm (hp.kind ▸ hk) (hp.written ▸ hq) hft) _ hrd

theorem formText_qualified (q : Bool) : decide (formText q = py"qualified") = q := by cases q <;> rfl

theorem formText_plain (q : Bool) : PlainText '\'' (formText q) := by cases q <;> (unfold PlainText; decide)

/-- Documents of schema objects, read again. -/
theorem published_document {v : Version} {D : Nat} {s : GSchema} {x x' : Xml}
    (h : generateSchema v (D + 12) s = .ok x) (hb : Back x x') :
    ∃ d, parseCls (specTable v) (D + 12) (D + 12) xSchema x' = .ok d ∧ readSchema d = schemaOf s := by
  obtain ⟨d0, d, h1, h2, h3⟩ := C82_schema v D s x x' h hb
  obtain ⟨⟨hbu, hw⟩, rfl⟩ := (C79_document v D s x).1 h
  have hd : d0 = describe s := Except.ok.inj (h1.symm.trans ((build_schema v D s).1 hbu))
  subst hd
  exact ⟨d, h2, by rw [readSchema_same h3, read_schema]⟩

/-- **C107 (written).** Take the XSD document of a program's schema object.  What the program writes with its class of a
complex type, from an object whose required fields are set, is valid for the type of that name in the document. -/
theorem C107_written (v : Version) (D : Nat) (s : GSchema) (x x' : Xml) (limit : Nat)
    (h : generateSchema v (D + 12) s = .ok x) (hb : Back x x') (hs : SchemaSurvives s limit) (hk : TypesKept s)
    (hT : Shown compile iso cls top T s) (hwf : T.Wf) (he : Enforced s) {means : Str → Str → Prop}
    (hmeans : ∀ p t, PatternAccepts (compile p) t → means p t) :
    ∃ d, parseCls (specTable v) (D + 12) (D + 12) xSchema x' = .ok d ∧
      ∀ c ∈ s.complexTypes, ∃ ct ∈ (readSchema d).complexTypes, ct.name = some (refName c.name) ∧
        ∀ (N : Nat) (o : Val) (tag : Str) (y : Xml), Complete T (.complex (cls c.name)) o →
          toXml T N o tag (some s.targetNamespace) s.qualified = .ok y →
          ∃ as ks, y = .elem ⟨some s.targetNamespace, tag⟩ as none ks ∧
            ValidContent [some py"xsd"] (readSchema d) means Lexical Lexical ct as ks := by
  obtain ⟨d, h1, hd⟩ := published_document h hb
  obtain ⟨env, s', h4, h5⟩ := execModule_ok hs fun _ => []
  obtain ⟨T', g1, hP, hsane, _⟩ := module_pair hs hk hT (fun _ => []) h4 h5
  refine ⟨d, h1, ?_⟩
  rw [hd]
  refine fun c hc => ⟨_, List.mem_map.2 ⟨c, hc, rfl⟩, rfl, fun N o tag y ho hy => ?_⟩
  obtain ⟨o', hp, ho'⟩ := complete_pair hP hwf hsane.names ho _ (.complex (.type hc))
  rw [C103_write hP hwf hsane.names N o o' hp] at hy
  refine C87_document (schemaToPy_code (parent := none) (fun _ => []) 0 hs.schemaOk) h4 (codeModule_names _ s ▸ hs.distinct) g1 hmeans (checked_document hs he)
    rfl he.nspace hs.nspace rfl (formText_plain _) N _ (List.mem_map.2 ⟨c, hc, rfl⟩) _ rfl o' ?_ tag y ?_
  · rw [capName_refName (complex_name hs hc)]; exact ho'
  · rw [formText_qualified]; exact hy

theorem read_document {s : GSchema} {limit : Nat} (hs : SchemaSurvives s limit) (he : Enforced s) :
    ReadDocument [some py"xsd"] (schemaOf s) := by
  have own : ∀ ct ∈ (schemaOf s).complexTypes, ∀ cs, Layers [some py"xsd"] (schemaOf s) ct cs →
      ∃ c ∈ s.complexTypes, cs = [contentOf c] := by
    intro ct hct cs hl
    obtain ⟨c, hc, rfl⟩ := List.mem_map.1 hct
    cases hl with
    | own => exact ⟨c, hc, rfl⟩
    | extension h => cases h
  have hels : ∀ c ∈ s.complexTypes, (contentOf c).elements = c.elements.map elementOf ∧ (contentOf c).attributes = [] := by
    intro c hc
    unfold contentOf DContent.elements
    simp only [he.order c hc, if_true, (hs.complex c hc).attributes]
    exact ⟨rfl, rfl⟩
  refine { checked_document hs he with keywords := ?_, named := ?_, different := ?_ }
  · intro ct hct cs hl k hk a ha
    obtain ⟨c, hc, rfl⟩ := own ct hct cs hl
    cases List.mem_singleton.1 hk
    rw [(hels c hc).2] at ha
    cases ha
  · intro ct hct cs hl k hk e hem
    obtain ⟨c, hc, rfl⟩ := own ct hct cs hl
    cases List.mem_singleton.1 hk
    rw [(hels c hc).1] at hem
    obtain ⟨g, hg, rfl⟩ := List.mem_map.1 hem
    obtain ⟨⟨a, l, h1, _⟩, _⟩ := ((hs.complex c hc).elements g hg).1
    intro e
    have : g.written = [] := Option.some.inj e
    rw [h1] at this
    cases this
  · intro st hst st' hst' n n' hn hn' e
    obtain ⟨g, hg, rfl⟩ := List.mem_map.1 hst
    obtain ⟨g', hg', rfl⟩ := List.mem_map.1 hst'
    have hmem : ∀ g ∈ s.simpleTypes, g.name ∈ s.simpleTypes.map (·.name) := fun g hg => List.mem_map.2 ⟨g, hg, rfl⟩
    have hcn : ∀ g ∈ s.simpleTypes, ClassName g.name := fun g hg => hs.names _ (by
      unfold moduleNames
      exact List.mem_append_left _ (List.mem_append_left _ (hmem g hg)))
    have hd : (s.simpleTypes.map (·.name)).Nodup := by
      have := hs.distinct
      unfold moduleNames at this
      exact (List.nodup_append.1 (List.nodup_append.1 this).1).1
    cases hn
    cases hn'
    rw [capName_refName (hcn g hg), capName_refName (hcn g' hg')] at e
    have : g = g' := List.inj_on_of_nodup_map hd hg hg' e
    rw [this]

theorem shown_own {s : GSchema} (hT : Shown compile iso cls top T s) (he : Enforced s) {gen : Str → ClsId} (c c' : ClsId)
    (hr : Counterpart s cls top gen c c') : OwnFields T c := by
  have key : ∀ c k, ClassShown compile iso cls s c k → c.indicator ≠ some .choice →
      k.choice = false ∧ ∀ f ∈ k.fields, f.kind = .element ∨ f.kind = .list ∨ f.kind = .attribute := by
    intro c k hk hc
    refine ⟨Bool.eq_false_iff.2 fun h => hc (hk.choice.1 h), fun f hf => ?_⟩
    obtain ⟨e, _, hfe⟩ := hk.fields.mem_right hf
    rcases hfe.occurs with o | o
    · exact .inl o.1
    · exact .inr (.inl o.1)
  cases hr with
  | type hc => exact key _ _ (hT.complex _ hc) (by rw [he.order _ hc]; decide)
  | own ht htt => exact key _ _ (hT.own _ ht _ htt) (he.own _ ht _ htt)

/-- **C107 (read).** What is valid for a type in the document, with texts that are kept, the program reads with its class of
that name, and it can write the same content again.  `k` bounds the depth of the documents. -/
theorem C107_read (v : Version) (D : Nat) (s : GSchema) (x x' : Xml) (limit : Nat)
    (h : generateSchema v (D + 12) s = .ok x) (hb : Back x x') (hs : SchemaSurvives s limit) (hk : TypesKept s)
    (hT : Shown compile iso cls top T s) (hsane : T.Sane) (he : Enforced s)
    (hU : ∀ c ∈ s.complexTypes, Unambiguous T (cls c.name))
    (hO : ∀ t ∈ s.elements, ∀ c, t.type = .inst (some c) → Unambiguous T (top t.name)) (hiso : IsoCanonical iso)
    {means : Str → Str → Prop} (hmeans : ∀ p t, means p t → PatternAccepts (compile p) t) :
    ∃ d, parseCls (specTable v) (D + 12) (D + 12) xSchema x' = .ok d ∧
      ∀ c ∈ s.complexTypes, ∃ ct ∈ (readSchema d).complexTypes, ct.name = some (refName c.name) ∧
        ∀ (tag : Str) (as : List (QName × Str)) (t : Option Str) (ks : List Xml), BlankText t →
          ValidContent [some py"xsd"] (readSchema d) means KeptAttr Kept ct as ks →
          ∃ k0, ∀ k, k0 ≤ k → ∃ o z,
            parseCls T (limit + 1) k (cls c.name) (.elem ⟨some s.targetNamespace, tag⟩ as t ks) = .ok o ∧
            toXml T k o tag (some s.targetNamespace) s.qualified = .ok z ∧
            SameContent z (.elem ⟨some s.targetNamespace, tag⟩ as t ks) := by
  obtain ⟨d, h1, hd⟩ := published_document h hb
  obtain ⟨env, s', h4, h5⟩ := execModule_ok hs fun _ => []
  obtain ⟨T', g1, hP, hsane', hU', _⟩ := module_pair hs hk hT (fun _ => []) h4 h5
  refine ⟨d, h1, ?_⟩
  rw [hd]
  refine fun c hc => ⟨_, List.mem_map.2 ⟨c, hc, rfl⟩, rfl, fun tag as t ks ht hv => ?_⟩
  have hkn := known_content hs he hT hv c hc rfl ⟨some s.targetNamespace, tag⟩ t
  obtain ⟨k0, hk0⟩ := C88_reads (schemaToPy_code (parent := none) (fun _ => []) 0 hs.schemaOk) h4 (codeModule_names _ s ▸ hs.distinct) g1 hmeans hiso
    (read_document hs he) rfl he.nspace hs.nspace rfl (formText_plain _) (List.mem_map.2 ⟨c, hc, rfl⟩) rfl ht hv (tag := tag)
  refine ⟨k0, fun k hkk => ?_⟩
  obtain ⟨o, z, r1, r2, r3⟩ := hk0 k hkk
  rw [capName_refName (complex_name hs hc)] at r1
  have hUU : ∀ c c', Counterpart s cls top env.idOf c c' → Unambiguous T c := by
    intro c c' hr
    cases hr with
    | type hc => exact hU _ hc
    | own ht htt => exact hO _ ht _ htt
  have hown : ∀ c c', Swap (Counterpart s cls top env.idOf) c c' → OwnFields T' c := by
    intro c' c hr
    have ho := shown_own hT he _ _ hr
    refine ⟨(hP _ _ hr).choice ▸ ho.1, fun f' hf' => ?_⟩
    obtain ⟨f, hf, hp⟩ := (hP _ _ hr).fields.mem_right hf'
    rw [← hp.kind]
    exact ho.2 f hf
  obtain ⟨fs, y, fs', y', e1, e2, e3⟩ := read_pair hP.swap hsane'.names hsane (fun c c' hr => ⟨hU' _ _ hr, hUU _ _ hr⟩) hown k _ _ _ _
    (.type hc : Swap (Counterpart s cls top env.idOf) _ _) (known_pair hP hkn _ (.type hc)) r1
  refine ⟨_, z, e2, ?_, r3⟩
  rw [formText_qualified] at r2
  rw [← C103_write hP.swap hsane'.names hsane.names k _ _ e3]
  exact r2

end

/-! ### Examples -/

namespace ExPub
open Ex

/-- A program with items, which have a size and a class, and lists of at least one item. -/
def itemsSchema : GSchema where
  targetNamespace := py"urn:a"
  qualified := true
  simpleTypes := [{ name := py"Size", base := .builtin .string, enumeration := some [.str ['S'], .str ['M']] }]
  complexTypes :=
    [{ name := py"Item"
       elements :=
        [{ name := py"size"
           type := { cls := .derived py"Size" (.builtin .string), enumeration := some [.str ['S'], .str ['M']] } },
         { name := py"class", minOccurs := some 0, nillable := true, type := { cls := .builtin .string } }] },
     { name := py"Items"
       elements :=
        [{ name := py"items", tagname := some py"item", type := { cls := .complex py"Item" }, minOccurs := some 1
           maxOccurs := some (some .unbounded) }] }]

theorem generates (v : Version) : generateSchema v 12 itemsSchema = .ok (document itemsSchema) := by
  cases v <;> rfl

theorem survives : SchemaSurvives itemsSchema 3 where
  nspace := plainText_of (by decide)
  alone := ⟨rfl, rfl⟩
  names := by
    intro n hn
    have : n = py"Size" ∨ n = py"Item" ∨ n = py"Items" := by
      simpa [moduleNames, itemsSchema, capName] using hn
    rcases this with rfl | rfl | rfl
    all_goals exact className_of (by decide) (by decide) (by decide)
  distinct := by decide +kernel
  simple := by
    intro st hst
    simp only [itemsSchema, List.mem_cons, List.not_mem_nil, or_false] at hst
    subst hst
    refine ⟨⟨_, rfl, by unfold CommonBuiltin; decide⟩, by simp, ?_, by simp⟩
    intro a ha
    simp only [Option.getD_some, List.mem_cons, List.not_mem_nil, or_false] at ha
    rcases ha with rfl | rfl
    · exact ⟨_, rfl, plainText_of (by decide)⟩
    · exact ⟨_, rfl, plainText_of (by decide)⟩
  complex := by
    intro c hc
    simp only [itemsSchema, List.mem_cons, List.not_mem_nil, or_false] at hc
    rcases hc with rfl | rfl
    · refine ⟨rfl, by simp, ?_, by decide +kernel⟩
      intro e he
      simp only [List.mem_cons, List.not_mem_nil, or_false] at he
      rcases he with rfl | rfl
      · refine ⟨fieldName_of (c := 's') (cs := py"ize") rfl rfl rfl (by decide), .inl ⟨rfl, ?_, .inl ⟨rfl, .inr rfl⟩⟩⟩
        exact ⟨_, List.mem_cons_self .., rfl, rfl⟩
      · exact ⟨fieldName_of (c := 'c') (cs := py"lass") rfl rfl rfl (by decide),
          .inl ⟨rfl, by unfold TypeSurvives CommonBuiltin; decide, .inl ⟨rfl, .inl rfl⟩⟩⟩
    · refine ⟨rfl, by simp, ?_, by decide +kernel⟩
      intro e he
      simp only [List.mem_cons, List.not_mem_nil, or_false] at he
      subst he
      refine ⟨fieldName_of (c := 'i') (cs := py"tem") rfl rfl rfl (by decide), .inl ⟨rfl, ?_, .inr ⟨_, rfl, trivial⟩⟩⟩
      exact ⟨_, List.mem_cons_self .., rfl⟩
  tops := by intro t ht; cases ht
  topNames := by decide +kernel
  fields := by decide +kernel
  topFields := by intro t ht; cases ht
  grounded := by
    refine ⟨fun n => if n = py"Item" then 0 else 1, ?_, ?_, ?_⟩
    · intro n
      show (if _ then _ else _) < _
      split <;> decide
    · intro c hc e he hm n hn
      simp only [itemsSchema, List.mem_cons, List.not_mem_nil, or_false] at hc
      rcases hc with rfl | rfl
      · simp only [List.mem_cons, List.not_mem_nil, or_false] at he
        rcases he with rfl | rfl <;> cases hn
      · simp only [List.mem_cons, List.not_mem_nil, or_false] at he
        subst he
        cases hn; decide
    · intro t ht; cases ht

theorem kept : TypesKept itemsSchema where
  complex := by
    intro c hc e he
    simp only [itemsSchema, List.mem_cons, List.not_mem_nil, or_false] at hc
    rcases hc with rfl | rfl
    · simp only [List.mem_cons, List.not_mem_nil, or_false] at he
      rcases he with rfl | rfl
      · refine ⟨fun b hb => (nomatch hb), fun st hst b hb hd => ?_⟩
        simp only [itemsSchema, List.mem_cons, List.not_mem_nil, or_false] at hst
        subst hst
        cases hb
        exact .text (by simp)
      · exact ⟨fun b hb => by cases hb; exact .text (by simp), fun st hst b hb hd => (nomatch hd)⟩
    · simp only [List.mem_cons, List.not_mem_nil, or_false] at he
      subst he
      exact ⟨fun b hb => (nomatch hb), fun st hst b hb hd => (nomatch hd)⟩
  own := by intro t ht; cases ht

theorem enforced : Enforced itemsSchema where
  nspace := by decide
  order := by decide
  own := by intro t ht; cases ht
  elements := by
    intro c hc e he
    simp only [itemsSchema, List.mem_cons, List.not_mem_nil, or_false] at hc
    rcases hc with rfl | rfl
    · simp only [List.mem_cons, List.not_mem_nil, or_false] at he
      rcases he with rfl | rfl
      · exact ⟨⟨rfl, .inl rfl⟩, by simp⟩
      · exact ⟨⟨rfl, .inl (by simp)⟩, by simp⟩
    · simp only [List.mem_cons, List.not_mem_nil, or_false] at he
      subst he
      exact ⟨⟨rfl, trivial⟩, by simp⟩

/-- The program's own classes: `Item` is class 5, `Items` class 6. -/
def itemsTable : Table
  | 5 => { name := py"Item", mro := [5], schema := some ⟨some py"urn:a", true⟩, fields := [
      { name := py"size", kind := .element, type := .simple (.string { enumeration := [['S'], ['M']] }) },
      { name := py"class", kind := .element, type := .simple (.string {}), required := false, nillable := true }] }
  | 6 => { name := py"Items", mro := [6], schema := some ⟨some py"urn:a", true⟩, fields := [
      { name := py"items", kind := .list, type := .complex 5, tagname := some py"item", minOccurs := some 1
        maxOccurs := some .unbounded }] }
  | n => { name := py"Other", mro := [n], fields := [] }

def itemsCls (n : Str) : ClsId := if n = py"Item" then 5 else 6

variable (compile : Str → Pattern) (iso : Iso)

theorem shown : Shown compile iso itemsCls itemsCls itemsTable itemsSchema where
  complex := by
    intro c hc
    simp only [itemsSchema, List.mem_cons, List.not_mem_nil, or_false] at hc
    rcases hc with rfl | rfl
    · refine ⟨.cons ?_ (.cons ?_ .nil), by decide, rfl, rfl, rfl⟩
      · exact ⟨rfl, rfl, rfl, .simple (by simp) rfl, ⟨rfl, rfl⟩, .inl ⟨rfl, rfl, by decide, rfl, rfl⟩⟩
      · exact ⟨rfl, rfl, rfl, .simple (by simp) rfl, ⟨rfl, rfl⟩, .inl ⟨rfl, rfl, by decide, rfl, rfl⟩⟩
    · refine ⟨.cons ?_ .nil, by decide, rfl, rfl, rfl⟩
      exact ⟨rfl, rfl, rfl, .complex (cls := itemsCls) (n := py"Item") rfl, ⟨rfl, rfl⟩, .inr ⟨rfl, rfl, rfl, _, rfl, rfl⟩⟩
  own := by intro t ht; cases ht

theorem sane : itemsTable.Sane where
  names := by
    intro c
    match c with
    | 0 | 1 | 2 | 3 | 4 | 5 | 6 => decide
    | n + 7 => exact List.Pairwise.nil
  self := by
    intro c
    match c with
    | 0 | 1 | 2 | 3 | 4 | 5 | 6 => decide
    | n + 7 => simp [itemsTable]
  defaults := by
    intro c f c' hf ht
    refine .inr ?_
    have : f.default = Val.none := by
      match c with
      | 0 | 1 | 2 | 3 | 4 | 5 | 6 =>
        simp [itemsTable] at hf
        try (first | subst hf; rfl | rcases hf with rfl | rfl <;> rfl)
      | n + 7 => simp [itemsTable] at hf
    rw [this]; exact .none

theorem unambiguous : ∀ c ∈ itemsSchema.complexTypes, Unambiguous itemsTable (itemsCls c.name) := by
  intro c hc n
  simp only [itemsSchema, List.mem_cons, List.not_mem_nil, or_false] at hc
  match n with
  | 0 => exact .nil
  | n + 1 =>
    rcases hc with rfl | rfl
    · refine .cons ?_ (.cons (by simp) .nil)
      intro g hg
      have : g = { name := py"class", kind := .element, type := .simple (.string {}), required := false, nillable := true } := by
        revert hg; exact fun h => by simpa [flat, itemsTable, itemsCls] using h
      subst this
      simp [Clash, Field.writtenName]
    · exact .cons (by simp) .nil

def item : Val := .inst 5 [(py"size", .atom (.str ['S'])), (py"class", .nil)] none

theorem item_complete : Complete itemsTable (.complex 5) item := by
  refine .inst rfl fun f w hf hw => ?_
  have hf : f ∈ [_, _] := hf
  simp only [List.mem_cons, List.not_mem_nil, or_false] at hf
  rcases hf with rfl | rfl
  · cases Option.some.inj hw
    exact .single (by decide) (.val (.simple (a := .str ['S']) rfl trivial fun h => h.elim))
  · cases Option.some.inj hw
    exact .single (by decide) (.nil rfl)

def itemXml : Xml := .elem ⟨some py"urn:a", py"item"⟩ [] none
  [.elem ⟨some py"urn:a", py"size"⟩ [] (some ['S']) [], .elem ⟨some py"urn:a", py"class"⟩ [(qNil, py"true")] none []]

/-- Two items are written as a valid element. -/
example (v : Version) (x' : Xml) (hb : Back (document itemsSchema) x') :
    toXml itemsTable 5 (.inst 6 [(py"items", .list true [item, item])] none) py"items" (some py"urn:a") true =
      .ok (.elem ⟨some py"urn:a", py"items"⟩ [] none [itemXml, itemXml]) ∧
    ∃ d, parseCls (specTable v) 12 12 xSchema x' = .ok d ∧ ∃ ct ∈ (readSchema d).complexTypes, ct.name = some py"items" ∧
      ValidContent [some py"xsd"] (readSchema d) (fun p t => PatternAccepts (compile p) t) Lexical Lexical ct [] [itemXml, itemXml] := by
  have h : toXml itemsTable 5 (.inst 6 [(py"items", .list true [item, item])] none) py"items" (some py"urn:a") true =
    .ok (.elem ⟨some py"urn:a", py"items"⟩ [] none [itemXml, itemXml]) := rfl
  refine ⟨h, ?_⟩
  obtain ⟨d, h1, h2⟩ := C107_written v 0 itemsSchema _ x' 3 (generates v) hb survives kept (shown compile iso) sane.names enforced
    (means := fun p t => PatternAccepts (compile p) t) fun _ _ h => h
  obtain ⟨ct, h3, h4, h5⟩ := h2 itemsSchema.complexTypes[1] (List.mem_cons_of_mem _ (List.mem_cons_self ..))
  refine ⟨d, h1, ct, h3, h4, ?_⟩
  obtain ⟨as, ks, e, hv⟩ := h5 5 _ py"items" _ (.inst rfl fun f w hf hw => by
    cases List.mem_singleton.1 hf
    cases Option.some.inj hw
    exact .list rfl fun v hv => .val (by
      simp only [List.mem_cons, List.not_mem_nil, or_false] at hv
      rcases hv with rfl | rfl <;> exact item_complete)) h
  injection e with _ e1 _ e2
  rw [e1, e2]
  exact hv

/-- A program whose lists of items do not say how many items there must be. -/
def openSchema : GSchema := { itemsSchema with complexTypes := [itemsSchema.complexTypes[0], { name := py"Items", elements :=
  [{ name := py"items", tagname := some py"item", type := { cls := .complex py"Item" }, minOccurs := none
     maxOccurs := some (some .unbounded) }] }] }

/-- The classes of that program. -/
def openTable : Table
  | 6 => { name := py"Items", mro := [6], schema := some ⟨some py"urn:a", true⟩, fields := [
      { name := py"items", kind := .list, type := .complex 5, tagname := some py"item", maxOccurs := some .unbounded }] }
  | n => itemsTable n

theorem open_shown : Shown compile iso itemsCls itemsCls openTable openSchema where
  complex := by
    intro c hc
    simp only [openSchema, List.mem_cons, List.not_mem_nil, or_false] at hc
    rcases hc with rfl | rfl
    · have h := (shown compile iso).complex itemsSchema.complexTypes[0] (List.mem_cons_self ..)
      exact ⟨h.fields, h.choice, h.schema, h.plain⟩
    · refine ⟨.cons ?_ .nil, by decide, rfl, rfl, rfl⟩
      exact ⟨rfl, rfl, rfl, .complex (cls := itemsCls) (n := py"Item") rfl, ⟨rfl, rfl⟩, .inr ⟨rfl, rfl, rfl, _, rfl, rfl⟩⟩
  own := by intro t ht; cases ht

/-- **C107 (false without the condition on lists).** This program writes a list without items, which is not valid for its own
XSD document. -/
theorem C107_open (v : Version) (x x' : Xml) (h : generateSchema v 12 openSchema = .ok x) (hb : Back x x')
    (means : Str → Str → Prop) : ∃ d, Shown compile iso itemsCls itemsCls openTable openSchema ∧
      Complete openTable (.complex (itemsCls py"Items")) (.inst 6 [(py"items", .list true [])] none) ∧
      toXml openTable 5 (.inst 6 [(py"items", .list true [])] none) py"items" (some py"urn:a") true =
        .ok (.elem ⟨some py"urn:a", py"items"⟩ [] none []) ∧
      parseCls (specTable v) 12 12 xSchema x' = .ok d ∧ ∃ ct ∈ (readSchema d).complexTypes, ct.name = some py"items" ∧
      ∀ as, ¬ ValidContent [some py"xsd"] (readSchema d) means Lexical Lexical ct as [] := by
  obtain ⟨d, h1, hd⟩ := published_document (D := 0) h hb
  refine ⟨d, open_shown compile iso, ?_, rfl, h1, ?_⟩
  · refine .inst rfl fun f w hf hw => ?_
    cases List.mem_singleton.1 hf
    cases Option.some.inj hw
    exact .list rfl fun v hv => absurd hv List.not_mem_nil
  · rw [hd]
    refine ⟨_, List.mem_map.2 ⟨openSchema.complexTypes[1], List.mem_cons_of_mem _ (List.mem_cons_self ..), rfl⟩, rfl, fun as hv => ?_⟩
    cases hv with
    | sequence hl _ _ hv =>
      cases layers_plain hl rfl
      obtain ⟨x, xs, hx, _⟩ := valid_first hv rfl
      cases hx

/-- An item with a comment and white space between its children. -/
def spaced : Xml := .elem ⟨some py"urn:a", py"item"⟩ [] (some py"\n  ")
  [.elem ⟨some py"urn:a", py"size"⟩ [] (some ['M']) [], .comment]

theorem spaced_valid (means : Str → Str → Prop) : ValidContent [some py"xsd"] (schemaOf itemsSchema) means KeptAttr Kept
    { name := some (refName py"Item"), content := contentOf itemsSchema.complexTypes[0] } []
    [.elem ⟨some py"urn:a", py"size"⟩ [] (some ['M']) [], .comment] := by
  refine .sequence (.own rfl) (fun c hc => by cases List.mem_singleton.1 hc; exact ⟨rfl, rfl⟩)
    ⟨fun a ha => (by cases ha), by decide, fun a ha => (by cases ha)⟩ ?_
  refine .cons (block := [_]) (rest := []) (fun x hx => ?_) ⟨by decide, by show (1 : Nat) ≤ 1; decide⟩
    (.cons (block := []) (rest := []) (fun x hx => by cases hx) ⟨by decide, by show (0 : Nat) ≤ 1; decide⟩ .nil)
  cases List.mem_singleton.1 hx
  refine .text (n := py"size") (q := py"sns:size") (t := some ['M']) rfl rfl
    (.derived (p := some py"sns") (l := py"size") (b := .string) (rs := [_]) (.prefixed (p := py"sns") (l := py"size") (by decide) (by decide))
      (by decide) (.first (st := (schemaOf itemsSchema).simpleTypes[0]) (n := py"size") (List.mem_cons_self ..) rfl rfl rfl
        (.prefixed (p := py"xsd") (l := py"string") (by decide) (by decide)) (by decide) rfl) ?_ ?_)
  · exact .string (by decide) (by unfold XmlOk; decide)
  · intro r hr
    cases List.mem_singleton.1 hr
    exact ⟨⟨by decide, by decide⟩, fun _ => by decide, fun p hp => by cases hp⟩

/-- The program reads this item, and writes the same content. -/
example (v : Version) (x' : Xml) (hb : Back (document itemsSchema) x') : ∃ k0, ∀ k, k0 ≤ k → ∃ o z,
    parseCls itemsTable 4 k 5 spaced = .ok o ∧ toXml itemsTable k o py"item" (some py"urn:a") true = .ok z ∧
      SameContent z spaced := by
  obtain ⟨d, h1, h2⟩ := C107_read v 0 itemsSchema _ x' 3 (generates v) hb survives kept (shown (fun _ => intPattern) isoRef) sane enforced
    unambiguous (by intro t ht; cases ht) isoRef_canonical (means := fun _ t => PatternAccepts intPattern t) fun _ _ h => h
  obtain ⟨d', h1', hd⟩ := published_document (D := 0) (generates v) hb
  cases h1.symm.trans h1'
  obtain ⟨ct, h3, h4, h5⟩ := h2 itemsSchema.complexTypes[0] (List.mem_cons_self ..)
  rw [hd] at h3 h5
  have : ct = { name := some (refName py"Item"), content := contentOf itemsSchema.complexTypes[0] } := by
    have h3 : ct ∈ [_, _] := h3
    simp only [List.mem_cons, List.not_mem_nil, or_false] at h3
    rcases h3 with rfl | rfl
    · rfl
    · exact absurd h4 (by decide)
  subst this
  exact h5 py"item" [] (some py"\n  ") _ (fun s hs => by cases Option.some.inj hs; decide) (spaced_valid _)

end ExPub
end Soapfish
