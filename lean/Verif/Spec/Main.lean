import Verif.Main
import Verif.Spec.Imports
/-
Vocabulary for the command line programs.
-/
namespace Soapfish

/-- ASCII white space. -/
def White (c : Char) : Prop := c = ' ' ∨ c = '\t' ∨ c = '\n' ∨ c = '\r' ∨ c.toNat = 11 ∨ c.toNat = 12

/-- `t` is `s` without white space at its ends. -/
def WithoutEnds (s t : Str) : Prop :=
  ∃ a b, s = a ++ t ++ b ∧ (∀ c ∈ a, White c) ∧ (∀ c ∈ b, White c) ∧ (∀ c, t.head? = some c → ¬ White c) ∧
    ∀ c, t.getLast? = some c → ¬ White c

/-- All files but `g` are the same, and nothing has been written to the standard output. -/
def OnlyFile (g : List Str) (d d' : Disk) : Prop := d'.stdout = d.stdout ∧ ∀ f, f ≠ g → d'.file f = d.file f

/-- What the program reads: the standard input, what is found at a URL, or a file seen from the directory `w`, which is empty by then
if the output goes there. -/
inductive InputOf (w : List Str) (get : Str → Except Exn Str) (stdin : Str) (d : Disk) (out : Option (List Str)) : Str → Str → Prop where
  | stdin : InputOf w get stdin d out py"-" stdin
  | url {p t} : p ≠ py"-" → IsUrl p → get p = .ok t → InputOf w get stdin d out p t
  | file {p f t} : p ≠ py"-" → ¬ IsUrl p → StandsFor w p f → out ≠ some f → d.file f = some t → InputOf w get stdin d out p t
  | emptied {p f} : p ≠ py"-" → ¬ IsUrl p → StandsFor w p f → out = some f → InputOf w get stdin d out p []

/-- The path `cwd` stands for the directory of the file `f`, in the form code generation needs. -/
structure DirOf (f : List Str) (cwd : Str) : Prop where
  absolute : Absolute cwd
  stands : StandsFor [] cwd f.dropLast
  notUrl : ¬ IsUrl cwd
  directory : f.dropLast ≠ [] → Directory cwd

/-- Where the output goes. -/
inductive OutputOf (w : List Str) : Option Str → Option (List Str) → Prop where
  | none : OutputOf w none none
  | dash : OutputOf w (some py"-") none
  | file {p f} : p ≠ py"-" → StandsFor w p f → OutputOf w (some p) (some f)

end Soapfish
