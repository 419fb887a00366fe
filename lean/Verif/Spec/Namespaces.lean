import Verif.Namespaces
/-
Vocabulary for what prefixes stand for in a document, after "Namespaces in XML".
-/
namespace Soapfish

/-- What each prefix stands for at some place; `none` is the default namespace. -/
abbrev Scope := Option Str → Option Str

/-- Declarations take the place of those of the elements around. -/
inductive Binds (outer : Scope) (decls : NsMap) (p : Option Str) : Option Str → Prop where
  | here {u} : (p, u) ∈ decls → Binds outer decls p (some u)
  | outer : (∀ u, (p, u) ∉ decls) → Binds outer decls p (outer p)

/-- `Inside outer t name scope`: in the tree `t`, around which `outer` is in force, there is an element called `name` (`t`
itself or one inside it) where `scope` is in force. -/
inductive Inside : Scope → NsTree → Str → Scope → Prop where
  | self {outer name decls kids scope} : (∀ p, Binds outer decls p (scope p)) → Inside outer (.node name decls kids) name scope
  | child {outer name decls kids scope kid n s} : (∀ p, Binds outer decls p (scope p)) → kid ∈ kids → Inside scope kid n s →
      Inside outer (.node name decls kids) n s

/-- A scope in force at some element of the document. -/
def ScopeOf (t : NsTree) (s : Scope) : Prop := ∃ n, Inside (fun _ => none) t n s

/-- A scope in force at the root element or at an element called `schema`. -/
def TopScope : NsTree → Scope → Prop
  | .node name decls kids, s => (∀ p, Binds (fun _ => none) decls p (s p)) ∨ Inside (fun _ => none) (.node name decls kids) py"schema" s

/-- No element declares a prefix twice. -/
inductive WellDeclared : NsTree → Prop where
  | node {name decls kids} : (decls.map (·.1)).Nodup → (∀ k ∈ kids, WellDeclared k) → WellDeclared (.node name decls kids)

/-- The namespace of XML Schema. -/
def IsXsdUri (u : Option Str) : Prop :=
  u = some py"http://www.w3.org/2001/XMLSchema" ∨ u = some py"http://www.w3.org/2000/10/XMLSchema"

/-- The text of a name with and without a prefix. -/
def qnameText : Option Str → Str → Str
  | none, l => l
  | some p, l => p ++ ':' :: l

/-- The name `l` with prefix `p` is taken for a type of XML Schema exactly if it is one at a place with scope `s`. -/
def TakenRightly (prefixes : List (Option Str)) (known : Option (List Str)) (s : Scope) (p : Option Str) (l : Str) : Prop :=
  (∃ name, getType prefixes known (.text (qnameText p l)) = .ok (py"xsd." ++ name)) ↔ IsXsdUri (s p)

end Soapfish
