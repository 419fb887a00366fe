import Verif.Py
/-
Vocabulary for the addresses in WSDL documents.
-/
namespace Soapfish

/-- A web address in parts, as they are written: `http://host/path;params?query#fragment`.  A part with a delimiter may be
missing or empty. -/
structure WebAddress where
  scheme : Str
  host : Str
  path : Str := []
  params : Option Str := none
  query : Option Str := none
  fragment : Option Str := none

/-- A part with its delimiter. -/
def written (delimiter : Char) : Option Str → Str
  | some s => delimiter :: s
  | none => []

/-- What follows the host. -/
def WebAddress.rest (a : WebAddress) : Str :=
  a.path ++ written ';' a.params ++ written '?' a.query ++ written '#' a.fragment

def WebAddress.text (a : WebAddress) : Str := a.scheme ++ py"://" ++ a.host ++ a.rest

/-- Every character is one of those that belong into the part. -/
structure WebAddress.Ok (a : WebAddress) : Prop where
  scheme : a.scheme = py"http" ∨ a.scheme = py"https"
  host : ∀ c ∈ a.host, c ≠ '/' ∧ c ≠ '?' ∧ c ≠ '#' ∧ c ≠ '[' ∧ c ≠ ']' ∧ c.toNat < 0x80
  path : a.path = [] ∨ ∃ s, a.path = '/' :: s
  pathChars : ∀ c ∈ a.path, c ≠ '?' ∧ c ≠ '#'
  lastSegment : ∀ s t, a.path = s ++ ';' :: t → '/' ∈ t
  params : ∀ s, a.params = some s → a.path ≠ [] ∧ ∀ c ∈ s, c ≠ '/' ∧ c ≠ '?' ∧ c ≠ '#'
  query : ∀ s, a.query = some s → '#' ∉ s
  spaces : ∀ c ∈ a.text, c ≠ '\t' ∧ c ≠ '\r' ∧ c ≠ '\n'

/-- No part that is only a delimiter. -/
def WebAddress.Tidy (a : WebAddress) : Prop := a.params ≠ some [] ∧ a.query ≠ some [] ∧ a.fragment ≠ some []

/-- Without the part if it is only a delimiter. -/
def dropEmpty : Option Str → Option Str
  | some [] => none
  | o => o

def WebAddress.tidied (a : WebAddress) : WebAddress :=
  { a with params := dropEmpty a.params, query := dropEmpty a.query, fragment := dropEmpty a.fragment }

end Soapfish
