import Verif.Spec.Shown
import Verif.Spec.Conforms
/-
Which schema objects have XSD documents that say exactly what the program's classes enforce.
-/
namespace Soapfish

/-- A class whose values are checked completely: a built-in one from the list, one derived from String or AnyURI, or a
complex type. -/
def TypeEnforced : TypeCls → Prop
  | .builtin b => b ∈ [.string, .anyURI, .boolean, .date, .time, .dateTime, .decimal, .double, .float] ∨ ∃ k, b = .int k
  | .derived _ base => base = .builtin .string ∨ base = .builtin .anyURI
  | .complex _ => True
  | .simpleType => False

/-- An element whose declaration is enforced: its type is given by a class, and a list says how many items it needs. -/
structure ElementEnforced (e : GElem) : Prop where
  type : e.passedClass = true ∧ TypeEnforced e.type.cls
  occurs : e.minOccurs ≠ none

/-- A schema object with a target namespace, whose complex types are sequences of such elements; elements with types of
their own do not offer a choice. -/
structure Enforced (s : GSchema) : Prop where
  nspace : s.targetNamespace ≠ []
  order : ∀ c ∈ s.complexTypes, c.indicator = some .sequence
  own : ∀ t ∈ s.elements, ∀ c, t.type = .inst (some c) → c.indicator ≠ some .choice
  elements : ∀ c ∈ s.complexTypes, ∀ e ∈ c.elements, ElementEnforced e

end Soapfish
