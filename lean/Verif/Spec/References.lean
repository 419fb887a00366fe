import Verif.Spec.CodeFields
/-
Vocabulary for stating which names a document may refer to.
-/
namespace Soapfish

/-- The document defines something that gets a class called `N`: a simple type that is a restriction or a list, a group of
attributes or of elements, a complex type, or a top-level element with a complex type in place.  An element with a type
given by name is not among them, nor is an attribute. -/
inductive GivesClass (d : DSchema) (N : Str) : Prop where
  | simple {st n} : st ∈ d.simpleTypes → st.restriction.isSome ∨ st.list = true → st.name = some n → capName n = N →
      GivesClass d N
  | attributeGroup {g n} : g ∈ d.attributeGroups → g.1 = some n → capName n = N → GivesClass d N
  | group {g n} : g ∈ d.groups → g.1 = some n → capName n = N → GivesClass d N
  | complex {ct n} : ct ∈ d.complexTypes → ct.name = some n → capName n = N → GivesClass d N
  | element {e ct n} : e ∈ d.elements → e.complexType = some ct → e.name = some n ∨ ct.name = some n → capName n = N →
      GivesClass d N

/-- The content of a complex type refers to `q`: as the type or the element or attribute meant by a part, or as a group of
attributes. -/
inductive RefersBy (c : DContent) (q : Str) : Prop where
  | attributeRef {a} : a ∈ c.attributes → a.ref = some q → RefersBy c q
  | attributeType {a} : a ∈ c.attributes → a.ref = none → a.type = some q → RefersBy c q
  | attributeGroup : some q ∈ c.attributeGroups → RefersBy c q
  | elementRef {e} : e ∈ c.elements → e.ref = some q → RefersBy c q
  | elementType {e} : e ∈ c.elements → e.ref = none → e.type = some q → RefersBy c q

/-- The document defines something with attributes or elements of its own called `N`; `g` says whether it is a group. -/
inductive HasParts (d : DSchema) : Str → Bool → Prop where
  | attributeGroup {g n} : g ∈ d.attributeGroups → g.1 = some n → HasParts d (capName n) true
  | group {g n} : g ∈ d.groups → g.1 = some n → HasParts d (capName n) true
  | complex {ct n} : ct ∈ d.complexTypes → ct.complexContent = none → ct.name = some n → HasParts d (capName n) false
  | element {e ct n} : e ∈ d.elements → e.complexType = some ct → ct.complexContent = none → e.name = some n →
      HasParts d (capName n) false

/-- The field for a reference to something called `l`: it has this name, and the class of this name with a capital letter as
its type. -/
structure RefField (d : DSchema) (env : PyEnv) (l : Str) (f : Field) : Prop where
  name : f.name = l
  kind : f.kind = .ref
  type : ∀ g, HasParts d (capName l) g → f.type = .complex (env.idOf (capName l))

/-- The field of an attribute: one that refers to another attribute has its name, and as its type what is called like
that. -/
structure AttributeGives (prefixes : List (Option Str)) (d : DSchema) (env : PyEnv) (compile : Str → Pattern) (iso : Iso)
    (a : DAttribute) (f : Field) : Prop where
  own : a.ref = none → a.name.isSome →
    AttrField a f ∧ ∀ q, a.type = some q → q ≠ [] → TypeMeans prefixes d env compile iso q f.type
  ref : ∀ q p l, a.ref = some q → q ≠ [] → Qualified q p l →
    AttrField { name := some l, use := a.use } f ∧ TypeMeans prefixes d env compile iso q f.type

/-- The fields of an element: an element with a name has one, unless it has neither a type by name nor a simple type in place;
a reference has one. -/
structure ElementGives (prefixes : List (Option Str)) (d : DSchema) (env : PyEnv) (compile : Str → Pattern) (iso : Iso)
    (e : DElement) (fs : List Field) : Prop where
  own : e.ref = none → e.name.isSome → e.type ≠ some [] → ¬ (e.type.isSome ∧ e.simpleType.isSome) → e.typed = true →
    ∃ f, fs = [f] ∧ ElemField e f ∧ ∀ q, e.type = some q → TypeMeans prefixes d env compile iso q f.type
  none : e.ref = none → e.typed = false → fs = []
  ref : ∀ q p l, e.ref = some q → q ≠ [] → Qualified q p l → p ∉ prefixes → e.typed = false → ∃ f, fs = [f] ∧ RefField d env l f

/-- No class of the code assigns the same name twice, or the name `create`. -/
def PyModule.OneEach (m : PyModule) : Prop :=
  ∀ c ∈ m.classes, (c.fields.map PyField.target).Nodup ∧ py"create" ∉ c.fields.map PyField.target

end Soapfish
