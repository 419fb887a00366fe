import Verif.Schemas
/-
Vocabulary for graphs of schemas.
-/
namespace Soapfish

/-- Schema `a` imports or includes schema `b`. -/
def Refers (W : World) (a b : SchemaId) : Prop := b ∈ (W.schema a).imports ∨ b ∈ (W.schema a).includes

/-- Reachable from the roots by at least one import or include. -/
inductive Reaches (W : World) (roots : List SchemaId) : SchemaId → Prop where
  | root {r i} : r ∈ roots → Refers W r i → Reaches W roots i
  | next {i j} : Reaches W roots i → Refers W i j → Reaches W roots j

/-- The schemas in depth-first order, each before the ones it imports and those before the ones it includes; the
nesting is at most `n`.  There is such a list exactly when nothing refers to itself. -/
inductive Listed (W : World) : Nat → List SchemaId → List SchemaId → Prop where
  | nil {n} : Listed W n [] []
  | cons {n s rest l l'} : Listed W n ((W.schema s).imports ++ (W.schema s).includes) l → Listed W (n + 1) rest l' →
      Listed W (n + 1) (s :: rest) (s :: l ++ l')

/-- The schema itself declares the element. -/
def SchemaDeclares (W : World) (s : SchemaId) (name : Str) (e : SElem) : Prop := (W.schema s).elements.get? name = some e

end Soapfish
