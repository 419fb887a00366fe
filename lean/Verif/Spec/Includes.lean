import Verif.Includes
import Verif.Spec.Imports
/-
Vocabulary for XSD documents that include or import each other. Files are lists of names from the root.
-/
namespace Soapfish

/-- A location written in a document of the directory `d` refers to the file `g`. -/
def RefersToFile (d : List Str) (doc : XsdFile) (g : List Str) : Prop := ∃ l, some l ∈ doc.locations ∧ StandsFor d l g

/-- The file `f` includes or imports the file `g`. -/
def Includes (files : List Str → Option XsdFile) (f g : List Str) : Prop :=
  ∃ doc, files f = some doc ∧ RefersToFile f.dropLast doc g

/-- `g` is `f` or is included by it, directly or not. -/
inductive Leads (files : List Str → Option XsdFile) : List Str → List Str → Prop where
  | self (f : List Str) : Leads files f f
  | via {f g h : List Str} (h1 : Leads files f g) (h2 : Includes files g h) : Leads files f h

/-- The locations of a document in the directory `d` are usable: local, and there is a file, which is not the directory
`b` or one above it. -/
def GoodLocations (files : List Str → Option XsdFile) (b d : List Str) (doc : XsdFile) : Prop :=
  ∀ l, some l ∈ doc.locations → ¬ IsUrl l ∧ ∀ g, StandsFor d l g → (files g).isSome ∧ ¬ g <+: b

end Soapfish
