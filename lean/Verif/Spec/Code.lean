import Verif.Run
import Verif.Spec.Generate
import Verif.Spec.Integers
/-
Vocabulary for stating what code generated from an XSD document does.
-/
namespace Soapfish

open Spec (minOf maxOf)

/-! ### Names and texts -/

def IdentChar (c : Char) : Prop := ('a' ≤ c ∧ c ≤ 'z') ∨ ('A' ≤ c ∧ c ≤ 'Z') ∨ c = '_' ∨ ('0' ≤ c ∧ c ≤ '9')

/-- The name of a class: a capital letter followed by letters, digits and underscores, and no keyword. -/
def ClassName (n : Str) : Prop :=
  (∃ c cs, n = c :: cs ∧ ('A' ≤ c ∧ c ≤ 'Z') ∧ ∀ d ∈ cs, IdentChar d) ∧ n ∉ [py"None", py"True", py"False"]

/-- The name of an element that can be a field: a letter or one underscore followed by letters, digits and underscores.
Keywords are allowed; names with a meaning in a class body or in a complex type class are not. -/
def FieldName (n : Str) : Prop :=
  (∃ c cs, n = c :: cs ∧ IdentChar c ∧ ¬ ('0' ≤ c ∧ c ≤ '9') ∧ ∀ d ∈ cs, IdentChar d) ∧ ¬ py"__" <+: n ∧
  n ∉ [py"INDICATOR", py"INHERITANCE", py"SCHEMA", py"accept", py"_meta", py"_find_field",
    py"_force_elements_type_evalution", py"render", py"parse_xmlelement", py"xml", py"parsexml", py"_xmlelement", py"_is_matching_element", py"_find_subelement",
    py"xsd", py"classmethod", py"create", py"cls"]

/-- A text that means itself between quotes. -/
def PlainText (quote : Char) (s : Str) : Prop :=
  ∀ c ∈ s, c ≠ quote ∧ c ≠ '\\' ∧ c ≠ '\n' ∧ c ≠ '\r' ∧ c ≠ Char.ofNat 0

/-- A text that means itself between single quotes after `r`: a backslash protects the character after it. -/
inductive RawText : Str → Prop where
  | nil : RawText []
  | char {c s} : c ≠ '\'' → c ≠ '\\' → c ≠ '\n' → c ≠ '\r' → c ≠ Char.ofNat 0 → RawText s → RawText (c :: s)
  | pair {c s} : c ≠ '\n' → c ≠ '\r' → c ≠ Char.ofNat 0 → RawText s → RawText ('\\' :: c :: s)

/-! ### Schemas that survive the way through XSD and generated code -/

/-- The built-in types that are read as what they were written from, and whose values can be set. -/
def CommonBuiltin (b : Builtin) : Prop :=
  b ∉ [.int .nonNegativeInteger, .int .nonPositiveInteger, .int .negativeInteger, .int .positiveInteger, .nmtoken,
    .nmtokens, .maxOccurs, .list, .anyType]

/-- A list of texts. -/
def PlainEnums (l : Option (List Atom)) : Prop := ∀ a ∈ l.getD [], ∃ t, a = .str t ∧ PlainText '\'' t

/-- A simple type derived from a built-in type, with an enumeration or a pattern. -/
structure SimpleSurvives (st : GSimple) : Prop where
  base : ∃ b, st.base = .builtin b ∧ CommonBuiltin b
  digits : ∀ a, st.fractionDigits = some a → Blank a
  enumeration : PlainEnums st.enumeration
  pattern : ∀ p, st.pattern = some p → RawText p

/-- A type that is built in or listed. -/
def TypeSurvives (s : GSchema) : TypeCls → Prop
  | .builtin b => CommonBuiltin b
  | .derived n base => ∃ st ∈ s.simpleTypes, n = st.name ∧ base = st.base
  | .complex n => ∃ c ∈ s.complexTypes, n = c.name
  | .simpleType => False

/-- A facet that is an integer or counts as absent. -/
def IntFacet (a : Option Atom) : Prop := ∀ x, a = some x → Blank x ∨ ∃ i, x = .int i

/-- An instance of a built-in type as its constructor leaves it. -/
inductive InPlaceSurvives : TypeObj → Prop where
  | text {b e p} : b ∈ [.string, .anyURI, .qname, .base64Binary, .duration] → PlainEnums e →
      (∀ q, p = some q → RawText q) → InPlaceSurvives { cls := .builtin b, enumeration := e, pattern := p }
  | decimal {e p fd td mi me xe xi} : PlainEnums e → (∀ q, p = some q → RawText q) → IntFacet fd → IntFacet td →
      IntFacet mi → IntFacet me → IntFacet xe → IntFacet xi →
      InPlaceSurvives { cls := .builtin .decimal, enumeration := e, pattern := p, fractionDigits := fd, totalDigits := td,
                        minInclusive := mi, minExclusive := me, maxExclusive := xe, maxInclusive := xi }
  | double {b e p mi me xe xi} : b ∈ [.double, .float] → (∀ q, p = some q → RawText q) →
      IntFacet mi → IntFacet me → IntFacet xe → IntFacet xi →
      InPlaceSurvives { cls := .builtin b, enumeration := e, pattern := p, minInclusive := mi, minExclusive := me,
                        maxExclusive := xe, maxInclusive := xi }
  | integer {k e td mi me xe xi} : CommonBuiltin (.int k) → IntFacet td → IntFacet mi → IntFacet me → IntFacet xe →
      IntFacet xi → (∀ i, minOf k = some i → mi = some (.int i)) → (∀ i, maxOf k = some i → xi = some (.int i)) →
      InPlaceSurvives { cls := .builtin (.int k), enumeration := e, pattern := some py"[-+]?[0-9]+"
                        fractionDigits := some (.int 0), totalDigits := td, minInclusive := mi, minExclusive := me
                        maxExclusive := xe, maxInclusive := xi }
  | plain {b} : b ∈ [.boolean, .date, .dateTime, .time] → InPlaceSurvives { cls := .builtin b }

/-- More than one occurrence is allowed. -/
def ManyBound : Bound → Prop
  | .int n => 1 < n
  | .unbounded => True

/-- An element that may occur at most once and says whether it must occur. -/
def GElem.Single (e : GElem) : Prop := e.maxOccurs.join = none ∧ (e.minOccurs = some 0 ∨ e.minOccurs = some 1)

/-- An element that may occur more than once. -/
def GElem.Many (e : GElem) : Prop := ∃ b, e.maxOccurs = some (some b) ∧ ManyBound b

/-- An element whose declaration survives. -/
def ElemSurvives (s : GSchema) (e : GElem) : Prop :=
  FieldName e.written ∧
  ((e.passedClass = true ∧ TypeSurvives s e.type.cls ∧ (e.Single ∨ e.Many)) ∨
   (e.passedClass = false ∧ InPlaceSurvives e.type ∧ e.maxOccurs.join = none ∧ e.minOccurs = some 1 ∧
    e.nillable = false ∧ e.written ∉ kwlist))

/-- A field's Python name: keywords get an underscore. -/
def pyName (n : Str) : Str := if n ∈ kwlist then '_' :: n else n

/-- A complex type whose declaration survives. -/
structure ComplexSurvives (s : GSchema) (c : GComplex) : Prop where
  attributes : c.attributes = []
  indicator : c.indicator ≠ none
  elements : ∀ e ∈ c.elements, ElemSurvives s e
  distinct : (c.elements.map fun e => pyName e.written).Nodup

/-- The name with its first letter in upper case. -/
def capName : Str → Str
  | [] => []
  | c :: cs => (if 'a' ≤ c ∧ c ≤ 'z' then Char.ofNat (c.toNat - 32) else c) :: cs

/-- A top-level element whose declaration survives. -/
def TopSurvives (s : GSchema) (t : GTop) : Prop :=
  PlainText '\'' t.name ∧ (∀ g, t.substitutionGroup = some g → PlainText '"' g) ∧
  match t.type with
  | .ofClass c => TypeSurvives s c
  | .inst (some c) => ComplexSurvives s c
  | .inst none => False

/-- The classes in the generated module: one for each type and one for each top-level element with a type of its own. -/
def moduleNames (s : GSchema) : List Str :=
  s.simpleTypes.map (·.name) ++ s.complexTypes.map (·.name) ++
  s.elements.flatMap fun t => match t.type with
    | .inst (some _) => [capName t.name]
    | _ => []

/-- Elements (not lists) never lead from a type back to itself: there is a measure that gets smaller, and stays below a
limit. -/
def Grounded (s : GSchema) (rank : Str → Nat) (limit : Nat) : Prop :=
  (∀ n, rank n < limit) ∧
  (∀ c ∈ s.complexTypes, ∀ e ∈ c.elements, ¬ e.Many → ∀ n, e.type.cls = .complex n → rank n < rank c.name) ∧
  (∀ t ∈ s.elements, ∀ c, t.type = .inst (some c) → ∀ e ∈ c.elements, ¬ e.Many → ∀ n, e.type.cls = .complex n →
    rank n < rank (capName t.name))

/-- A schema object that survives. -/
structure SchemaSurvives (s : GSchema) (limit : Nat) : Prop where
  nspace : PlainText '\'' s.targetNamespace
  alone : s.imports = [] ∧ s.includes = []
  names : ∀ n ∈ moduleNames s, ClassName n
  distinct : (moduleNames s).Nodup
  simple : ∀ st ∈ s.simpleTypes, SimpleSurvives st
  complex : ∀ c ∈ s.complexTypes, ComplexSurvives s c
  tops : ∀ t ∈ s.elements, TopSurvives s t
  topNames : (s.elements.map (·.name)).Nodup
  fields : ∀ c ∈ s.complexTypes, ∀ e ∈ c.elements, pyName e.written ∉ moduleNames s
  topFields : ∀ t ∈ s.elements, ∀ c, t.type = .inst (some c) → ∀ e ∈ c.elements, pyName e.written ∉ moduleNames s
  grounded : ∃ rank, Grounded s rank limit

end Soapfish
