import Verif.Spec.Dispatch
/-
What paths stand for: files are lists of names from the root; links are not followed.
-/
namespace Soapfish

/-- Going along one component of a path: nothing and '.' stay, '..' goes up (from the root to the root), a name goes
down. -/
def goTo (d : List Str) (c : Str) : List Str :=
  if c = [] ∨ c = py"." then d else if c = py".." then d.dropLast else d ++ [c]

/-- The path stands for the file `f`, seen from the directory `d`; only paths that begin with a slash do not depend on
`d`. -/
def StandsFor (d : List Str) (path : Str) (f : List Str) : Prop :=
  ∃ parts, Joined '/' parts path ∧ f = parts.foldl goTo (if path.head? = some '/' then [] else d)

/-- An absolute path. -/
def Absolute (p : Str) : Prop := p.head? = some '/'

/-- The text contains '://'. -/
def IsUrl (s : Str) : Prop := ∃ a b, s = a ++ py"://" ++ b

end Soapfish
