import Verif.Spec.CodeFields
import Verif.Spec.Documents
import Verif.Spec.Integers
import Verif.Spec.DateTimes
import Verif.Spec.Numerals
/-
What it means for an element to be valid with respect to an XSD document, and which instances are complete.
-/
namespace Soapfish

open Spec (InRange RealDate WholeTime two isoText offsetText PatternAccepts XsdDecimal XsdDouble numVal)

/-! ### Texts -/

/-- A date `YYYY-MM-DD`. -/
def dateText (y m d : Nat) : Str := two (y / 100) ++ two (y % 100) ++ ['-'] ++ two m ++ ['-'] ++ two d

/-- A time `HH:MM:SS`. -/
def timeText (t : TimeV) : Str := two t.hour ++ [':'] ++ two t.minute ++ [':'] ++ two t.second

/-- The text of an optional offset of at most 14 hours. -/
inductive ZoneText : Str → Prop where
  | absent : ZoneText []
  | offset {n : Int} : -840 ≤ n → n ≤ 840 → ZoneText (offsetText n)

/-- The text `t` belongs to the lexical space of the built-in type. -/
inductive Lexical : Builtin → Str → Prop where
  | string {t} : Lexical .string t
  | anyURI {t} : Lexical .anyURI t
  | true : Lexical .boolean py"true"
  | false : Lexical .boolean py"false"
  | int {k i} : InRange k i → Lexical (.int k) (intStr i)
  | date {y m d z} : RealDate y m d → ZoneText z → Lexical .date (dateText y m d ++ z)
  | time {t z} : WholeTime t → ZoneText z → Lexical .time (timeText t ++ z)
  | dateTime {y m d t z} : RealDate y m d → WholeTime t → ZoneText z → Lexical .dateTime (isoText y m d t ++ z)
  | decimal {t x} : XsdDecimal t x → Lexical .decimal t
  | double {t} : XsdDouble t → Lexical .double t
  | float {t} : XsdDouble t → Lexical .float t

/-- The restriction has no facets besides enumerated values and a pattern. -/
structure OnlyTextFacets (r : DRestriction) : Prop where
  numbers : r.minInclusive = none ∧ r.minExclusive = none ∧ r.maxExclusive = none ∧ r.maxInclusive = none ∧
    r.fractionDigits = none ∧ r.totalDigits = none
  texts : r.length = none ∧ r.minLength = none ∧ r.maxLength = none ∧ r.whiteSpace = none

/-- A text obeys the enumeration and the pattern of a restriction; `means p t`: the text `t` matches the pattern `p`. -/
def ObeysRestriction (means : Str → Str → Prop) (r : DRestriction) (t : Str) : Prop :=
  (r.enumerations ≠ [] → some t ∈ r.enumerations) ∧ ∀ p, r.pattern = some (some p) → means p t

section
variable (prefixes : List (Option Str)) (d : DSchema) (means : Str → Str → Prop)

/-- The text `t` is a value of the type called `q`; `L` says which texts there are for the built-in types. -/
inductive FitsType (L : Builtin → Str → Prop) (q : Str) (t : Str) : Prop where
  | builtin {p l b} : Qualified q p l → p ∈ prefixes → capName l = b.clsName → L b t → FitsType L q t
  | derived {p l b rs} : Qualified q p l → p ∉ prefixes → DerivedBy prefixes d (capName l) b rs → L b t →
      (∀ r ∈ rs, OnlyTextFacets r ∧ ObeysRestriction means r t) → FitsType L q t

/-! ### Elements -/

/-- So many occurrences are allowed. -/
def DElement.Allows (e : DElement) (n : Nat) : Prop :=
  e.minOccurs.getD 1 ≤ n ∧
  match e.maxOccurs with
  | none => n ≤ 1
  | some .unbounded => True
  | some (.int m) => (n : Int) ≤ m

/-- The name of a local element in a document. -/
def localTag (d : DSchema) (name : Str) : QName :=
  if d.elementFormDefault = some py"qualified" then ⟨d.targetNamespace, name⟩ else ⟨none, name⟩

/-- The children that are not comments. -/
def withoutComments (ks : List Xml) : List Xml := ks.filter fun | .comment => false | _ => true

/-- No text, or white space. -/
def BlankText (t : Option Str) : Prop := ∀ s, t = some s → ∀ c ∈ s, c = ' ' ∨ c = '\t' ∨ c = '\n' ∨ c = '\r'

-- Which texts there are for the built-in types in attributes and in elements.
variable (LA LE : Builtin → Str → Prop)

/-- The attributes are declared, have values of their types, are different, and the required ones are there. -/
structure ValidAttributes (decls : List DAttribute) (as : List (QName × Str)) : Prop where
  declared : ∀ a ∈ as, ∃ decl ∈ decls, ∃ n q, decl.name = some n ∧ decl.type = some q ∧ a.1 = ⟨none, n⟩ ∧
    FitsType prefixes d means LA q a.2
  distinct : (as.map (·.1)).Nodup
  required : ∀ decl ∈ decls, decl.use = some py"required" → ∃ a ∈ as, ∃ n, decl.name = some n ∧ a.1 = ⟨none, n⟩

mutual
/-- Attributes and children as the complex type with sequences asks for; an extension adds to what its base asks for.
Comments may be anywhere. -/
inductive ValidContent : DComplex → List (QName × Str) → List Xml → Prop where
  | sequence {ct cs as ks} : Layers prefixes d ct cs → (∀ c ∈ cs, c.all = none ∧ c.choice = none) →
      ValidAttributes prefixes d means LA (cs.map (·.attributes)).flatten as →
      ValidSequence (cs.map (·.elements)).flatten (withoutComments ks) →
      ValidContent ct as ks
/-- The children follow the declarations. -/
inductive ValidSequence : List DElement → List Xml → Prop where
  | nil : ValidSequence [] []
  | cons {e es block rest} : (∀ x ∈ block, ValidElement e x) → e.Allows block.length → ValidSequence es rest →
      ValidSequence (e :: es) (block ++ rest)
/-- An element as it is declared: with its name, and nil, with a text, or with attributes and children. -/
inductive ValidElement : DElement → Xml → Prop where
  | nil {e n} : e.name = some n → e.nillable = true →
      ValidElement e (.elem (localTag d n) [(qNil, py"true")] none [])
  | text {e n q t} : e.name = some n → e.type = some q → FitsType prefixes d means LE q (t.getD []) →
      ValidElement e (.elem (localTag d n) [] t [])
  | content {e n q p l ct as t ks} : e.name = some n → e.type = some q → Qualified q p l → p ∉ prefixes → ct ∈ d.complexTypes →
      ct.name = some l → BlankText t → ValidContent ct as ks → ValidElement e (.elem (localTag d n) as t ks)
end

/-! ### Documents whose rules are enforced -/

/-- A type name whose values the generated code checks completely: a built-in type from the list, or the only restriction of
a text type, with enumerated values and a pattern only. -/
inductive CheckedType (q : Str) : Prop where
  | builtin {p l} {b : Builtin} : Qualified q p l → p ∈ prefixes → capName l = b.clsName →
      (b ∈ [.string, .anyURI, .boolean, .date, .time, .dateTime, .decimal, .double, .float] ∨ ∃ k, b = .int k) → CheckedType q
  | derived {p l b r} : Qualified q p l → p ∉ prefixes → DerivedBy prefixes d (capName l) b [r] →
      b ∈ [Builtin.string, .anyURI] → OnlyTextFacets r → PlainFacets r → r.pattern ≠ some (some []) → CheckedType q

/-- An element whose declaration the generated code enforces. -/
structure CheckedElement (e : DElement) : Prop where
  /-- It may occur more than once and says how often it must, or it occurs at most once. -/
  occurs : (e.Many ∧ e.minOccurs ≠ none) ∨
    ((e.maxOccurs = none ∨ e.maxOccurs = some (.int 1)) ∧ (e.minOccurs = none ∨ e.minOccurs = some 0 ∨ e.minOccurs = some 1))
  type : ∃ q, e.type = some q ∧ (CheckedType prefixes d q ∨
    ∃ p l, Qualified q p l ∧ p ∉ prefixes ∧ ∃ ct ∈ d.complexTypes, ct.name = some l)

/-- Layers of a complex type that are enforced by the generated code. -/
structure CheckedLayers (cs : List DContent) : Prop where
  plain : ∀ c ∈ cs, PlainContent c
  order : ∀ c ∈ cs, c.all = none ∧ c.choice = none
  names : (layerNames cs).Nodup ∧ py"create" ∉ layerNames cs
  attributes : ∀ c ∈ cs, ∀ a ∈ c.attributes, ∃ q, a.type = some q ∧ q ≠ [] ∧ CheckedType prefixes d q
  elements : ∀ c ∈ cs, ∀ e ∈ c.elements, CheckedElement prefixes d e

/-- A document whose complex types are enforced by the generated code: each one has a name and is an extension of another
one, or none. -/
structure CheckedDocument : Prop where
  types : ∀ ct ∈ d.complexTypes, ct.name.isSome ∧ ∃ cs, Layers prefixes d ct cs
  layers : ∀ ct ∈ d.complexTypes, ∀ cs, Layers prefixes d ct cs → CheckedLayers prefixes d cs
end

/-! ### Complete instances -/

/-- An offset of whole minutes, at most 14 hours. -/
def ZoneOk (tz : Option Tz) : Prop := ∀ z, tz = some z → ∃ n : Int, -840 ≤ n ∧ n ≤ 840 ∧ z = ⟨n * 60000000⟩

/-- Values that can be written, not None: dates have four digits of the year, times whole seconds. -/
def Tidy : Atom → Prop
  | .none => False
  | .xsdDate d tz => RealDate d.year d.month d.day ∧ 1000 ≤ d.year ∧ ZoneOk tz
  | .time t tz => WholeTime t ∧ ZoneOk tz
  | .datetime d t tz => RealDate d.year d.month d.day ∧ 1000 ≤ d.year ∧ WholeTime t ∧ ZoneOk tz
  | _ => True

/-- Numbers whose text is a decimal: ints, and floats that are zero or from 0.0001 to below 10000000000000000 in absolute value
(C121). -/
def PlainNumber : Atom → Prop
  | .int _ => True
  | .float f => ∃ x, numVal (.float f) = some x ∧ (x = 0 ∨ (10 : ℚ) ^ (-4 : Int) ≤ |x| ∧ |x| < (10 : ℚ) ^ (16 : Int))
  | _ => False

/-- Types of numbers. -/
def SType.Numeric : SType → Prop
  | .decimal _ | .integer _ => True
  | _ => False

mutual
/-- A value of the type, with everything it needs: an accepted simple value, or an instance of exactly the class,
with the fields of the class. -/
inductive Complete (T : Table) : FType → Val → Prop where
  | simple {s a b} : SType.accept s a = .ok b → Tidy b → (s.Numeric → PlainNumber b) → Complete T (.simple s) (.atom b)
  | inst {c fs x} : fs.map (·.1) = (T c).fields.map (·.name) →
      (∀ f v, f ∈ (T c).fields → Dict.get? fs f.name = some v → CompleteField T f v) → Complete T (.complex c) (.inst c fs x)
/-- NIL if the field is nillable, or a value of its type. -/
inductive CompleteItem (T : Table) : Field → Val → Prop where
  | nil {f} : f.nillable = true → CompleteItem T f .nil
  | val {f v} : Complete T f.type v → CompleteItem T f v
/-- None only for a field that is not required. -/
inductive CompleteField (T : Table) : Field → Val → Prop where
  | absent {f} : f.kind ≠ .list → f.required = false → CompleteField T f Val.none
  | single {f v} : f.kind ≠ .list → CompleteItem T f v → CompleteField T f v
  | list {f t is} : f.kind = .list → (∀ v, v ∈ is → CompleteItem T f v) → CompleteField T f (.list t is)
end

end Soapfish
