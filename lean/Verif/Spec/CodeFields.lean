import Verif.RunTable
import Verif.Spec.CodeTypes
/-
Vocabulary for stating which fields the classes in generated code have.
-/
namespace Soapfish

/-- The elements of a sequence, or else of `all`, or else of a choice. -/
def DContent.elements (c : DContent) : List DElement := (c.sequence.or (c.all.or c.choice)).getD []

/-- The element has a type by name or in place. -/
def DElement.typed (e : DElement) : Bool := e.type.isSome || e.simpleType.isSome

/-- More than one occurrence is allowed. -/
def DElement.Many (e : DElement) : Prop := ∃ b, e.maxOccurs = some b ∧ ManyBound b

/-- The layers of a complex type: its content or, for an extension, the layers of the base type and the content of the
extension. -/
inductive Layers (prefixes : List (Option Str)) (d : DSchema) : DComplex → List DContent → Prop where
  | own {ct} : ct.complexContent = none → Layers prefixes d ct [ct.content]
  | extension {ct b c p l base cs} : ct.complexContent = some { extension := some (some b, c) } → Qualified b p l → p ∉ prefixes →
      base ∈ d.complexTypes → base.name = some l → Layers prefixes d base cs → Layers prefixes d ct (cs ++ [c])

/-- A layer that only has attributes and elements of its own, all of them with names. -/
structure PlainContent (c : DContent) : Prop where
  groups : c.attributeGroups = []
  attributes : ∀ a ∈ c.attributes, a.ref = none ∧ a.name.isSome
  elements : ∀ e ∈ c.elements, e.ref = none ∧ e.name.isSome ∧ e.type ≠ some [] ∧ ¬ (e.type.isSome ∧ e.simpleType.isSome)

/-- The names of attributes, and of elements with a type. -/
def DContent.fieldNames (c : DContent) : List Str :=
  (c.attributes.filterMap (·.name) ++ (c.elements.filter (·.typed)).filterMap (·.name)).map pyName

def layerNames (cs : List DContent) : List Str := (cs.map (·.fieldNames)).flatten

/-- The names of the elements that occur exactly once, or rather whose `minOccurs` is 1. -/
def DContent.createNames (c : DContent) : List Str :=
  ((c.elements.filter fun e => decide (e.minOccurs = some 1 ∨ e.minOccurs = none)).filterMap (·.name)).map pyName

/-- The layer has a choice of elements, and nothing else. -/
def DContent.IsChoice (c : DContent) : Prop := c.sequence = none ∧ c.all = none ∧ c.choice ≠ none

/-- The layer has neither a sequence nor a choice nor `all`. -/
def DContent.NoOrder (c : DContent) : Prop := c.sequence = none ∧ c.all = none ∧ c.choice = none

/-- The field of an attribute. -/
structure AttrField (a : DAttribute) (f : Field) : Prop where
  name : ∃ n, a.name = some n ∧ f.name = pyName n ∧ f.tag = n
  kind : f.kind = .attribute
  required : f.required = true ↔ a.use = some py"required"
  bare : f.nspace = none ∧ f.default = Val.none ∧ f.nillable = false

/-- The field of an element with a type: a list if it may occur more than once; with a type in place it is always a single
required one. -/
structure ElemField (e : DElement) (f : Field) : Prop where
  name : ∃ n, e.name = some n ∧ f.name = pyName n ∧ f.tag = n
  many : e.type.isSome → e.Many →
    f.kind = .list ∧ f.minOccurs = e.minOccurs ∧ f.maxOccurs = e.maxOccurs ∧ f.nillable = e.nillable
  one : e.type.isSome → ¬ e.Many →
    f.kind = .element ∧ (f.required = true ↔ e.minOccurs ≠ some 0) ∧ f.nillable = e.nillable
  inPlace : e.simpleType.isSome → f.kind = .element ∧ f.required = true ∧ f.nillable = false
  bare : f.nspace = none ∧ f.default = Val.none

/-- The behaviour of a built-in type without further facets. -/
def plainType (iso : Iso) : Builtin → FType
  | .string | .anyURI | .qname | .nmtoken | .nmtokens | .base64Binary | .duration => .simple (.string {})
  | .boolean => .simple .boolean
  | .date => .simple .date
  | .dateTime => .simple (.datetime iso)
  | .time => .simple (.time iso)
  | .decimal | .double | .float => .simple (.decimal {})
  | .int k => .simple (.integer (k.facets {}))
  | .maxOccurs => .simple .maxOccurs
  | .list | .anyType => .any

/-- The type name `q` of a field means the type `t`: a built-in type, the class of a simple type, or that of a complex
type of the document. -/
structure TypeMeans (prefixes : List (Option Str)) (d : DSchema) (env : PyEnv) (compile : Str → Pattern) (iso : Iso) (q : Str)
    (t : FType) : Prop where
  builtin : ∀ p l b, Qualified q p l → p ∈ prefixes → capName l = b.clsName → t = plainType iso b
  simple : ∀ p l b rs, Qualified q p l → p ∉ prefixes → DerivedBy prefixes d (capName l) b rs → b ∉ [.list, .anyType] →
    ∃ o st, env.get (capName l) = some (.simple o) ∧ t = .simple st ∧ (TextBuiltin b → ∃ f, st = .string f) ∧
      ∀ v, (TypeUse.simple o).accept env compile iso v = some (st.accept v)
  complex : ∀ p l ct n cs, Qualified q p l → p ∉ prefixes → ct ∈ d.complexTypes → Layers prefixes d ct cs →
    ct.name = some n → capName n = capName l → t = .complex (env.idOf (capName l))

end Soapfish
