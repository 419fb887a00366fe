import Verif.Spec.Described
/-
Vocabulary for the schemas of a WSDL document that import each other.
-/
namespace Soapfish

/-- The schema imports the namespace `n`. -/
def ImportsNs (s : Val) (n : Str) : Prop := ∃ items i, ItemsOf s py"imports" items ∧ i ∈ items ∧ HasText i py"namespace" n

/-- A schema, given those before it in the document: it imports only namespaces of schemas before it for which the same holds. For each
imported namespace `n`, `t n` is such a schema, `p n` are those before that one and `q n` those between it and this one. -/
inductive EarlyAt : List Val → Val → Prop where
  | intro {before : List Val} {s : Val} (p : Str → List Val) (t : Str → Val) (q : Str → List Val) :
      (∀ n, ImportsNs s n → before = p n ++ t n :: q n) → (∀ n, ImportsNs s n → HasText (t n) py"targetNamespace" n) →
      (∀ n, ImportsNs s n → EarlyAt (p n) (t n)) → EarlyAt before s

/-- The code of the schema `t` comes before that of `s`: that of the early schemas comes first, then that of the others, and the order among both
is that of the document. -/
inductive ComesFirst (before : List Val) (s : Val) (after : List Val) (t : Val) : Prop where
  /-- an early one before it in the document -/
  | early (p q : List Val) : before = p ++ t :: q → EarlyAt p t → ComesFirst before s after t
  /-- an early one anywhere in the document, if `s` is not early itself -/
  | moved (p q : List Val) : ¬ EarlyAt before s → before ++ s :: after = p ++ t :: q → EarlyAt p t → ComesFirst before s after t
  /-- another one before it in the document, if `s` is not early itself -/
  | late (p q : List Val) : ¬ EarlyAt before s → before = p ++ t :: q → ¬ EarlyAt p t → ComesFirst before s after t

/-- A schema with the namespace `n` is there when the schema `s` is created. -/
def ThereFor (before : List Val) (s : Val) (after : List Val) (n : Str) : Prop :=
  ∃ t, ComesFirst before s after t ∧ HasText t py"targetNamespace" n

/-- No two of the namespaces that the schemas have or import have the same digest. -/
def DistinctDigests (digest : Str → Str) (schemas : List Val) : Prop :=
  ∀ m n, (∃ s ∈ schemas, HasText s py"targetNamespace" m ∨ ImportsNs s m) → (∃ s ∈ schemas, HasText s py"targetNamespace" n ∨ ImportsNs s n) →
    digest m = digest n → m = n

end Soapfish
