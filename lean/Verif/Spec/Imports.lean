import Verif.Imports
import Verif.Spec.Paths
/-
Vocabulary for the order of schemas and for imported documents.
-/
namespace Soapfish

/-- `a` comes before `b` in the list. -/
def Before {α : Type} (l : List α) (a b : α) : Prop := ∃ l1 l2 l3, l = l1 ++ a :: (l2 ++ b :: l3)

/-- A file name: not empty, no slash and no colon. -/
def FileName (s : Str) : Prop := s ≠ [] ∧ '/' ∉ s ∧ ':' ∉ s

/-- The five kinds of contents. -/
inductive Content5 where
  | schemas | services | bindings | messages | portTypes

def Content5.of (d : Definitions) : Content5 → List Nat
  | .schemas => d.schemas
  | .services => d.services
  | .bindings => d.bindings
  | .messages => d.messages
  | .portTypes => d.portTypes

/-- The documents of one directory, by file name; `name` can be reached from the imports `is`. -/
inductive Reached (files : Str → Option Definitions) : List Str → Str → Prop where
  | direct {is : List Str} {name : Str} (h : name ∈ is) : Reached files is name
  | step {is : List Str} {via name : Str} {d : Definitions} (h : Reached files is via) (hd : files via = some d)
      (hn : name ∈ d.imports) : Reached files is name

/-- A directory that is absolute and does not end with a slash, as `os.path.dirname` of an absolute path gives (unless it
is the root). -/
def Directory (cwd : Str) : Prop := Absolute cwd ∧ cwd.getLast? ≠ some '/'

/-- The world of the documents `files` in the directory `cwd`. -/
def InDirectory (cwd : Str) (files : Str → Option Definitions) (read : Str → Except Exn Definitions) : Prop :=
  ∀ name d, files name = some d → read (cwd ++ '/' :: name) = .ok d

end Soapfish
