import Verif.Spec.References
/-
Vocabulary for stating what complex types may be derived from.
-/
namespace Soapfish

/-- The complex type is derived from what is called `q`, with `c` as the content of the derivation.  A restriction wins if there is
an extension, too. -/
inductive DerivedVia (ct : DComplex) (q : Str) (c : DContent) : Prop where
  | restriction {x} : ct.complexContent = some { restriction := some (some q, c), extension := x } → DerivedVia ct q c
  | extension : ct.complexContent = some { extension := some (some q, c) } → DerivedVia ct q c

/-- The document derives complex types, in one step or several, such that the class called `A` should have the class called `B` as
an ancestor. -/
inductive DerivesInto (prefixes : List (Option Str)) (d : DSchema) : Str → Str → Prop where
  | step {ct N q c p l} : ct ∈ d.complexTypes → ct.name = some N → DerivedVia ct q c → Qualified q p l → p ∉ prefixes →
      DerivesInto prefixes d (capName N) (capName l)
  | trans {A B C} : DerivesInto prefixes d A B → DerivesInto prefixes d B C → DerivesInto prefixes d A C

end Soapfish
