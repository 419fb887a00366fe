import Verif.Spec.Dispatch
import Verif.Spec.Documents
import Verif.Spec.Schemas
/-
Vocabulary for what a method can rely on about its input.
-/
namespace Soapfish

/-- One of the schemas of the service, or one reachable from them by imports and includes. -/
def OfService (W : World) (S : Service) (s : SchemaId) : Prop := s ∈ S.schemas ∨ Reaches W S.schemas s

/-- The schemas of the service declare an element with this name and type. -/
def GlobalElement (W : World) (S : Service) (q : QName) (ty : FType) : Prop :=
  ∃ s e, OfService W S s ∧ SchemaDeclares W s q.loc e ∧ q.ns = some (W.schema s).targetNamespace ∧ e.type = ty

/-- The element has a child for every required element of the class. -/
def HasRequired (T : Table) (c : ClsId) (x : Xml) : Prop :=
  ∀ f ∈ (T c).fields, f.kind = .element → f.required = true → ∃ y ∈ x.kids, y.Named f.tag

/-- Some of what XSD validation means: a valid document is an element that the schemas declare, and it has all required
elements of the type it is declared with.  (Elements declared as nillable could be empty; there are none.) -/
def ChecksRequired (W : World) (d : Dispatcher) : Prop :=
  ∀ x, d.validator x = .ok () → ∃ q a t k ty, x = .elem q a t k ∧ GlobalElement W d.service q ty ∧
    ∀ c, ty = .complex c → HasRequired (W.table d.service) c x

/-- All declarations with this local name, in whatever schema, have one type. -/
def OneType (W : World) (S : Service) (n : Str) : Prop :=
  ∀ s s' e e', OfService W S s → OfService W S s' → SchemaDeclares W s n e → SchemaDeclares W s' n e' → e.type = e'.type

/-- As XSD demands: what can stand for an element has the fields of that element, and more. -/
def ProperGroups (W : World) (S : Service) : Prop :=
  ∀ s s' n n' e e' g c c', OfService W S s → OfService W S s' → SchemaDeclares W s n e → SchemaDeclares W s' n' e' →
    e'.substitutionGroup = some g → AfterColon g n → e.type = .complex c → e'.type = .complex c' →
    ∀ f ∈ (W.table S c).fields, f ∈ (W.table S c').fields

/-- The last child that a field claims. -/
def LastClaimed (f : Field) (ks : List Xml) (y : Xml) : Prop :=
  ∃ pre post, ks = pre ++ y :: post ∧ f.Claims y ∧ ∀ z ∈ post, ¬ f.Claims z

end Soapfish
