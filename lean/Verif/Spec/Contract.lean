import Verif.Spec.Validated
import Verif.Spec.Kept
/-
Vocabulary for stating that a server keeps to its XSD document, whoever calls it.
-/
namespace Soapfish

/-- The element is valid for the document, as the top-level element with the given name, and has only texts that are kept. -/
def KeptRoot (prefixes : List (Option Str)) (d : DSchema) (means : Str → Str → Prop) (n : Str) (x : Xml) : Prop :=
  ∃ e ∈ d.elements, ∃ q p l, e.name = some n ∧ e.type = some q ∧ Qualified q p l ∧ p ∉ prefixes ∧
    ∃ ct ∈ d.complexTypes, ct.name = some l ∧ ∃ as t ks, x = .elem ⟨d.targetNamespace, n⟩ as t ks ∧ BlankText t ∧
      ValidContent prefixes d means KeptAttr Kept ct as ks

/-- A program in state `s` that has just been sent `content`. -/
def State.receive (s : State) (env : Env) (content : Bytes) : State :=
  { s with reqs := s.reqs ++ [{ environ := env, content := content }] }

/-- The top-level element `n` of a schema object is declared with the complex type `c`. -/
def GSchema.Top (g : GSchema) (n c : Str) : Prop := ∃ t ∈ g.elements, t.name = n ∧ t.type = .ofClass (.complex c)

/-- A method that computes the object of its response from its parameter. -/
def ComputesBody (m : Method) (f : Val → Val) : Prop := m.function = some fun _ p => .ret (.obj (.val (f p)))

end Soapfish
