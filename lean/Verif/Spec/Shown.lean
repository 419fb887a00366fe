import Verif.Spec.Paired
import Verif.Spec.Code
import Verif.RunTypes
/-
Vocabulary for comparing the classes of a program with those of the code that is generated from its XSD document.  `s` is
the schema object of the program as the generator of XSD documents sees it, `T` are the classes of the program; the class of
a complex type `n` is `cls n`, and an element of the schema with a type of its own is an instance of the class `top n`.
-/
namespace Soapfish

section
variable (compile : Str → Pattern) (iso : Iso) (cls : Str → ClsId)

/-- The type of the field is the one of the element. -/
inductive TypeShown (e : GElem) : FType → Prop where
  | complex {n} : e.type.cls = .complex n → TypeShown e (.complex (cls n))
  | simple {t} : (∀ n, e.type.cls ≠ .complex n) → e.type.stype compile iso = some t → TypeShown e (.simple t)

/-- The field is an `Element` or `ListElement` as described by `e`, without default and namespace. -/
structure FieldShown (e : GElem) (f : Field) : Prop where
  name : f.name = e.name
  tagname : f.tagname = e.tagname
  nillable : f.nillable = e.nillable
  type : TypeShown compile iso cls e f.type
  plain : f.default = .atom .none ∧ f.nspace = none
  occurs : (f.kind = .element ∧ e.maxOccurs = none ∧ (f.required = false ↔ e.minOccurs = some 0) ∧ f.minOccurs = none ∧
      f.maxOccurs = none) ∨
    (f.kind = .list ∧ f.required = true ∧ f.minOccurs = e.minOccurs ∧ ∃ b, f.maxOccurs = some b ∧ e.maxOccurs = some (some b))

/-- The class is described by `c`. -/
structure ClassShown (s : GSchema) (c : GComplex) (k : Cls) : Prop where
  fields : All2 (FieldShown compile iso cls) c.elements k.fields
  choice : k.choice = true ↔ c.indicator = some .choice
  schema : k.schema = some ⟨some s.targetNamespace, s.qualified⟩
  plain : k.isGroup = false ∧ k.header = false

/-- The schema object lists these classes. -/
structure Shown (top : Str → ClsId) (T : Table) (s : GSchema) : Prop where
  complex : ∀ c ∈ s.complexTypes, ClassShown compile iso cls s c (T (cls c.name))
  own : ∀ t ∈ s.elements, ∀ c, t.type = .inst (some c) → ClassShown compile iso cls s c (T (top t.name))

end

/-! ### Types of which nothing is lost -/

open Spec in
/-- What calling a class without arguments gives, if the class is or derives from `b`, has no constructor of its own, and
its body defines `enumeration` and `pattern`.  Constructors of numbers ignore what the class body says. -/
inductive BareType (b : Builtin) (cls : TypeCls) (enumeration : Option (List Atom)) (pattern : Option Str) : TypeObj → Prop where
  | text : b ∈ [.string, .anyURI, .qname, .base64Binary, .duration] →
      BareType b cls enumeration pattern { cls := cls, enumeration := enumeration, pattern := pattern }
  | number : b ∈ [.decimal, .double, .float] → BareType b cls enumeration pattern { cls := cls }
  | integer {k} : b = .int k → BareType b cls enumeration pattern
      { cls := cls, fractionDigits := some (.int 0), pattern := some py"[-+]?[0-9]+"
        minInclusive := (minOf k).map .int, maxInclusive := (maxOf k).map .int }
  | other {t} : b ∈ [.boolean, .date, .dateTime, .time] → t.cls = cls → BareType b cls enumeration pattern t

/-- No facet that counts as absent in the XSD document: not zero, for instance. -/
def Present (a : Option Atom) : Prop := ∀ x, a = some x → ¬ Blank x

open Spec in
/-- Restrictions in place that appear in the XSD document: no bound and no number of digits is zero, and only values of
String and Decimal are enumerated. -/
def InPlaceKept (t : TypeObj) : Prop :=
  match t.cls with
  | .builtin .decimal => t.enumeration ≠ some [] ∧ Present (t.pattern.map .str) ∧ Present t.fractionDigits ∧
      Present t.totalDigits ∧ Present t.minInclusive ∧ Present t.minExclusive ∧ Present t.maxExclusive ∧
      Present t.maxInclusive
  | .builtin .double | .builtin .float => t.enumeration = none ∧ Present (t.pattern.map .str) ∧ Present t.minInclusive ∧
      Present t.minExclusive ∧ Present t.maxExclusive ∧ Present t.maxInclusive
  | .builtin (.int k) => t.enumeration = none ∧ Present t.totalDigits ∧ Present t.minExclusive ∧ Present t.maxExclusive ∧
      (minOf k = none → Present t.minInclusive) ∧ (maxOf k = none → Present t.maxInclusive)
  | .builtin .anyURI | .builtin .qname | .builtin .base64Binary | .builtin .duration => t.enumeration.getD [] = []
  | _ => True

/-- A type of which nothing is lost on the way through the XSD document. -/
def TypeKept (s : GSchema) (e : GElem) : Prop :=
  if e.passedClass then
    (∀ b, e.type.cls = .builtin b → BareType b e.type.cls none none e.type) ∧
    (∀ st ∈ s.simpleTypes, ∀ b, st.base = .builtin b → e.type.cls = .derived st.name st.base →
      BareType b e.type.cls st.enumeration st.pattern e.type)
  else InPlaceKept e.type

/-- No type of a field loses anything. -/
structure TypesKept (s : GSchema) : Prop where
  complex : ∀ c ∈ s.complexTypes, ∀ e ∈ c.elements, TypeKept s e
  own : ∀ t ∈ s.elements, ∀ c, t.type = .inst (some c) → ∀ e ∈ c.elements, TypeKept s e

/-- Which class of the program goes with which class of the generated code, where `gen n` is the class named `n`. -/
inductive Counterpart (s : GSchema) (cls top gen : Str → ClsId) : ClsId → ClsId → Prop where
  | type {c} : c ∈ s.complexTypes → Counterpart s cls top gen (cls c.name) (gen c.name)
  | own {t c} : t ∈ s.elements → t.type = .inst (some c) → Counterpart s cls top gen (top t.name) (gen (capName t.name))

end Soapfish
