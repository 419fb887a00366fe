import Verif.Order
import Verif.Spec.Imports
/-
Vocabulary for derived types.
-/
namespace Soapfish

/-- The type is derived from the type called `b`. -/
def TypeDecl.DerivedFrom (t : TypeDecl) (b : Str) : Prop := t.content = .extension b ∨ t.content = .restriction b

/-- The type is not derived from another one. -/
def TypeDecl.Plain (t : TypeDecl) : Prop := t.content = .none

instance (t : TypeDecl) : Decidable t.Plain := by unfold TypeDecl.Plain; infer_instance

/-- Types whose content has neither extension nor restriction, given the content of the type before. -/
def inheritContent : TypeContent → List TypeDecl → List TypeDecl
  | _, [] => []
  | before, t :: l =>
    if t.content = .neither then { t with content := before } :: inheritContent before l else t :: inheritContent t.content l

end Soapfish
