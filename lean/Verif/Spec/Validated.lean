import Verif.Spec.Conforms
import Verif.Spec.Calls
/-
Which messages a validator for an XSD document has to accept.
-/
namespace Soapfish

/-- Elements with children have no text but white space. -/
inductive Unmixed : Xml → Prop where
  | elem {q as t ks} : (ks = [] ∨ BlankText t) → (∀ k, k ∈ ks → Unmixed k) → Unmixed (.elem q as t ks)
  | comment : Unmixed .comment
  | pi : Unmixed .pi

/-- The element is valid for the document: it has the name of a top-level element in the target namespace, and attributes and
children as the complex type of this element asks for. -/
def ValidRoot (prefixes : List (Option Str)) (d : DSchema) (means : Str → Str → Prop) (x : Xml) : Prop :=
  ∃ e ∈ d.elements, ∃ n q p l, e.name = some n ∧ e.type = some q ∧ Qualified q p l ∧ p ∉ prefixes ∧
    ∃ ct ∈ d.complexTypes, ct.name = some l ∧ ∃ as t ks, x = .elem ⟨d.targetNamespace, n⟩ as t ks ∧ BlankText t ∧
      ValidContent prefixes d means Lexical Lexical ct as ks

/-- The document survives transport, and reading it gives no text between children but white space. -/
def TravelsWell (W : World) (doc : Xml) : Prop := ∃ doc', W.read (W.write doc) = some doc' ∧ Back doc doc' ∧ Unmixed doc'

end Soapfish
