import Verif.TextInject
/-
C101: the text of generated code has the statements it was made from, if names are identifiers and texts fit between quotes; what is
written into a value of an enumeration otherwise becomes code.
-/
namespace Soapfish

/-- Python reads the generated text, and what it reads are the classes and the schema. -/
theorem C101_reads {prefixes : List (Option Str)} {digest : Str → Str} (hd : HexDigits digest) {known k : List Str} {d : DSchema} {m : PyModule}
    (h : schemaCode prefixes digest known d = .ok (m, k)) (hf : m.Fits) :
    (openings d).length = m.classes.length ∧ readPython (m.text (openings d)) = some (m.lines (openings d)) :=
  ⟨(regular_module hd h).classes.length, read_module hf (regular_module hd h)⟩

/-- The same with the complex types put in order. -/
theorem C101_toPy {prefixes : List (Option Str)} {digest : Str → Str} (hd : HexDigits digest) {n : Nat} {parent : Option Str} {d : DSchema} {m : PyModule}
    (h : schemaToPy prefixes digest n parent d = .ok m) (hf : m.Fits) : ∃ cts, reorderComplex n d.complexTypes = .ok cts ∧
    (openings { d with complexTypes := cts }).length = m.classes.length ∧
    readPython (m.text (openings { d with complexTypes := cts })) = some (m.lines (openings { d with complexTypes := cts })) := by
  unfold schemaToPy at h
  obtain ⟨cts, h1, h⟩ := bind_eq_ok.1 h
  obtain ⟨⟨m', k⟩, h2, h⟩ := bind_eq_ok.1 h
  cases Except.ok.inj h
  have := C101_reads hd h2 hf
  exact ⟨cts, h1, this⟩

/-- A document with one simple type that has one value. -/
def valueDoc (value : Str) : DSchema where
  targetNamespace := some py"urn:v"
  simpleTypes := [{ name := some py"colour", restriction := some { base := some py"xs:string", enumerations := [some value] } }]

/-- Any expression can be brought into the code by a value of an enumeration, and is evaluated when the class body is. -/
theorem C101_injection {digest : Str → Str} (hd : HexDigits digest) {s : Str} {e : PyExpr} (h : Written s e) : ∃ value m k,
    schemaCode [some py"xs"] digest [] (valueDoc value) = .ok (m, k) ∧
    readPython (m.text (openings (valueDoc value))) =
      some [(0, .block py"class" (.call (.name py"Colour") [(none, .xsd py"String")])),
        (4, .assign (.name py"enumeration") (.list [.text [], e, .text []])),
        m.schema.line] := by
  have hc : schemaCode [some py"xs"] digest [] (valueDoc (py"', " ++ (s ++ py", '"))) =
    .ok (⟨[{ name := py"Colour", base := .xsd py"String", enumeration := some [py"', " ++ (s ++ py", '")] }],
      ⟨py"Schema_" ++ digest py"urn:v", [], [], py"urn:v", py"unqualified", [py"Colour"], [], [], [], []⟩⟩, [py"Colour"]) := rfl
  refine ⟨_, _, _, hc, read_of ?_ rfl⟩
  have ho : openings (valueDoc (py"', " ++ (s ++ py", '"))) = [.nothing] := rfl
  have h1 : Quotable '\'' py"urn:v" := quotable_plain (by decide)
  have h2 : Quotable '\'' py"unqualified" := quotable_plain (by decide)
  have hs : Reads' _ [_] := reads'_schema (s := ⟨py"Schema_" ++ digest py"urn:v", [], [], py"urn:v", py"unqualified", [py"Colour"], [], [], [], []⟩)
    ⟨h1, h2, fun n hn => by rw [List.mem_singleton.1 hn]; exact ident_of rfl,
      (fun _ h => nomatch h), (fun _ h => nomatch h), (fun _ h => nomatch h), (fun _ h => nomatch h)⟩
    (ident_schema hd (s := some py"urn:v") rfl) (fun _ h => nomatch h) (fun _ h => nomatch h)
  have := reads'_append (reads'_comment (s := py"urn:v") (by decide)) (reads'_append (reads'_header (n := py"Colour") (r := .xsd py"String") (ident_of rfl) (ident_of rfl))
    (reads'_append (reads'_inject h) (reads'_append reads'_blank hs)))
  rw [ho]
  unfold PyModule.text PyClassDef.text
  simp only [List.zipWith_cons_cons, List.zipWith_nil_right, List.flatten_cons, List.flatten_nil, Opening.text, List.flatMap_nil, indicatorText, createText, List.nil_append, List.append_nil, List.append_assoc,
    List.cons_append] at this ⊢
  exact this

/-! ### Examples -/

namespace ExText

/-- A type with two values, and a type with an element and an attribute. -/
def carDoc : DSchema where
  targetNamespace := some py"urn:car"
  elementFormDefault := some py"qualified"
  simpleTypes := [{ name := some py"colour", restriction := some { base := some py"xs:string", enumerations := [some py"red", some py"dark blue"] } }]
  complexTypes :=
    [{ name := some py"car"
       content := { sequence := some [{ name := some py"class", type := some py"c:colour" }, { name := some py"seat", type := some py"xs:int", minOccurs := some 0, maxOccurs := some .unbounded }]
                    attributes := [{ name := some py"id", type := some py"xs:string", use := some py"required" }] } }]
  elements := [{ name := some py"car", type := some py"c:car" }]

def carCode : PyModule where
  classes :=
    [{ name := py"Colour", base := .xsd py"String", enumeration := some [py"red", py"dark blue"] },
     { name := py"Car", base := .xsd py"ComplexType", indicator := some .sequence
       fields := [.attribute py"id" (.xsd py"String") none py"xsd.Use.REQUIRED", .element py"_class" (.name py"Colour") (some py"class") none false,
         .list py"seat" (.xsd py"Int") py"seat" (some 0) .unbounded false]
       create := some [py"_class"] }]
  schema := { var := py"Schema_01234", imports := [], includes := [], targetNamespace := py"urn:car", elementFormDefault := py"qualified", simpleTypes := [py"Colour"], attributeGroups := []
              groups := [], complexTypes := [py"Car"], elements := [{ name := py"car", type := .inl (.name py"Car") }] }

theorem car_code : schemaCode [some py"xs"] (fun _ => py"01234") [] carDoc = .ok (carCode, [py"Colour", py"Car"]) := by decide +kernel

theorem car_fits : carCode.Fits := by
  refine ⟨fun c hc => ?_, ⟨quotable_plain (by decide), quotable_plain (by decide), fun n hn => ?_, (fun _ h => nomatch h), (fun _ h => nomatch h), fun n hn => ?_, fun t ht => ?_⟩⟩
  · rcases List.mem_cons.1 hc with rfl | hc
    · refine ⟨ident_of rfl, ident_of rfl, fun l hl s hs => ?_, (fun _ h => nomatch h), (fun _ h => nomatch h), (fun _ h => nomatch h), rfl⟩
      cases hl
      rcases List.mem_cons.1 hs with rfl | hs
      · exact quotable_plain (by decide)
      · rw [List.mem_singleton.1 hs]; exact quotable_plain (by decide)
    · rw [List.mem_singleton.1 hc]
      refine ⟨ident_of rfl, ident_of rfl, (fun _ h => nomatch h), (fun _ h => nomatch h), fun f hf => ?_, fun l hl => ?_, rfl⟩
      · rcases List.mem_cons.1 hf with rfl | hf
        · exact ⟨ident_of rfl, ident_of rfl, fun _ h => nomatch h⟩
        rcases List.mem_cons.1 hf with rfl | hf
        · exact ⟨ident_of rfl, ident_of rfl, fun s h => by cases h; exact quotable_plain (by decide)⟩
        · rw [List.mem_singleton.1 hf]
          exact ⟨ident_of rfl, ident_of rfl, quotable_plain (by decide)⟩
      · cases hl
        refine ⟨fun s hs => ?_, by decide⟩
        rw [List.mem_singleton.1 hs]
        exact ident_of rfl
  · rw [List.mem_singleton.1 hn]; exact ident_of rfl
  · rw [List.mem_singleton.1 hn]; exact ident_of rfl
  · rw [List.mem_singleton.1 ht]
    exact ⟨quotable_plain (by decide), ident_of rfl, fun _ h => nomatch h⟩

theorem hex : HexDigits fun _ => py"01234" := by
  intro s c hc
  have : ∀ c ∈ py"01234", isDigitC c = true := by decide
  exact .inl (this c hc)

/-- The text -/
example : carCode.text (openings carDoc) = (
  py"# urn:car\n\n" ++
  py"class Colour(xsd.String):\n" ++
  py"    enumeration = ['red', 'dark blue']\n\n\n" ++
  py"class Car(xsd.ComplexType):\n" ++
  py"    INHERITANCE = None\n" ++
  py"    INDICATOR = xsd.Sequence\n" ++
  py"    id = xsd.Attribute(xsd.String, use=xsd.Use.REQUIRED)\n" ++
  py"    _class = xsd.Element(Colour, tagname='class')\n" ++
  py"    seat = xsd.ListElement(xsd.Int, tagname='seat', minOccurs=0, maxOccurs=xsd.UNBOUNDED)\n\n" ++
  py"    @classmethod\n" ++
  py"    def create(cls, _class):\n" ++
  py"        instance = cls()\n" ++
  py"        instance._class = _class\n" ++
  py"        return instance\n\n\n" ++
  py"Schema_01234 = xsd.Schema(\n" ++
  py"    imports=[],\n" ++
  py"    includes=[],\n" ++
  py"    targetNamespace='urn:car',\n" ++
  py"    elementFormDefault='qualified',\n" ++
  py"    simpleTypes=[Colour],\n" ++
  py"    attributeGroups=[],\n" ++
  py"    groups=[],\n" ++
  py"    complexTypes=[Car],\n" ++
  py"    elements={'car': xsd.Element(Car)},\n)\n\n") := by decide +kernel

/-- It is read as fourteen lines. -/
example : ∃ ls, readPython (carCode.text (openings carDoc)) = some ls ∧ ls.length = 14 ∧
    ls[9]? = some (4, .block py"def" (.call (.name py"create") [(none, .name py"cls"), (none, .name py"_class")])) :=
  ⟨_, (C101_reads hex car_code car_fits).2, rfl, rfl⟩

/-- A type with an element of the name `cls`. -/
def clsDoc : DSchema where
  targetNamespace := some py"urn:c"
  complexTypes := [{ name := some py"car", content := { sequence := some [{ name := some py"cls", type := some py"xs:int" }] } }]

/-- `def create(cls, cls):` cannot be read. -/
example : ∃ m k, schemaCode [some py"xs"] (fun _ => py"01234") [] clsDoc = .ok (m, k) ∧ readPython (m.text (openings clsDoc)) = none :=
  ⟨_, _, rfl, by decide +kernel⟩

/-- With a quote in a value the text cannot be read. -/
example : ∃ m k, schemaCode [some py"xs"] (fun _ => py"01234") [] (valueDoc py"it's") = .ok (m, k) ∧ readPython (m.text (openings (valueDoc py"it's"))) = none :=
  ⟨_, _, rfl, by decide +kernel⟩

/-- `__import__('os').system('rm -r .')` -/
theorem bad_call : Written py"__import__('os').system('rm -r .')"
    (.call (.attr (.call (.name py"__import__") [(none, .text py"os")]) py"system") [(none, .text py"rm -r .")]) :=
  .call (.attr (n := py"system") (.call (s := py"__import__") (t := py"'os'") (.name (ident_of rfl)) (.one (.text (s := py"os") (quotable_plain (by decide))))) (fun _ h => nomatch h) (ident_of rfl))
    (.one (.text (s := py"rm -r .") (quotable_plain (by decide))))

example : ∃ value m k, schemaCode [some py"xs"] (fun _ => py"01234") [] (valueDoc value) = .ok (m, k) ∧
    ∃ r, readPython (m.text (openings (valueDoc value))) = some r ∧
      r[1]? = some (4, .assign (.name py"enumeration") (.list [.text [], .call (.attr (.call (.name py"__import__") [(none, .text py"os")]) py"system") [(none, .text py"rm -r .")], .text []])) := by
  obtain ⟨v, m, k, h1, h2⟩ := C101_injection hex bad_call
  exact ⟨v, m, k, h1, _, h2, rfl⟩

end ExText

end Soapfish
