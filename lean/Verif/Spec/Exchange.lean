import Verif.Exchange
import Verif.Spec.Mixed
/-
What a request of a stub may look like.
-/
namespace Soapfish

/-- The request goes to the address of the stub, with its name and password if and only if it has a name, and it is a message
of the version of its service. -/
structure ProperRequest (W : World) (t : Stub) (p : Posted) : Prop where
  location : p.location = t.location
  named : ∀ u, t.username = some u → u ≠ [] → p.auth = some (u, t.password)
  anonymous : t.username = none ∨ t.username = some [] → p.auth = none
  message : ∃ x, p.data = W.write x ∧
    match t.service.version with | .soap11 => Message11 p.headers x | .soap12 => Message12 p.headers x

end Soapfish
