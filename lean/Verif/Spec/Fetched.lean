import Verif.Spec.Remote
/-
Vocabulary for locations that are queries.
-/
namespace Soapfish

/-- The text of a query in a URL. -/
def QueryText (w : Str) : Prop := w ≠ [] ∧ ∀ c ∈ w, c ≠ ':' ∧ c ≠ '#' ∧ 0x20 < c.toNat

end Soapfish
