import Verif.Files
import Verif.Spec.Paths
/-
Vocabulary for XSD documents on web servers.
-/
namespace Soapfish

/-- Names, each after a slash. -/
def slashed : List Str → Str
  | [] => []
  | x :: l => '/' :: x ++ slashed l

/-- The URL of what the names lead to on a host. -/
def webText (scheme host : Str) (names : List Str) : Str := scheme ++ py"://" ++ host ++ slashed names

/-- A web server. -/
structure Site (scheme host : Str) : Prop where
  isWeb : scheme = py"http" ∨ scheme = py"https"
  named : host ≠ []
  chars : ∀ c ∈ host, c ≠ '/' ∧ c ≠ '?' ∧ c ≠ '#' ∧ c ≠ '[' ∧ c ≠ ']' ∧ 0x20 < c.toNat ∧ c.toNat < 0x80

/-- The name of a file or directory in a URL. -/
def UrlName (x : Str) : Prop :=
  x ≠ [] ∧ x ≠ py"." ∧ x ≠ py".." ∧ ∀ c ∈ x, c ≠ '/' ∧ c ≠ '?' ∧ c ≠ '#' ∧ c ≠ ';' ∧ 0x20 < c.toNat

/-- A reference without scheme and host: names, `.` and `..`, at the end a name; it may begin with a slash. -/
def Relative (l : Str) : Prop :=
  (∀ c ∈ l, c ≠ ':' ∧ c ≠ '?' ∧ c ≠ '#' ∧ c ≠ ';' ∧ 0x20 < c.toNat) ∧
  ∃ parts, Joined '/' parts l ∧ (∀ p ∈ parts.tail, p ≠ []) ∧ ∀ x, parts.getLast? = some x → UrlName x

/-- A location is a URL, or a reference relative to the directory `dir` of the host. -/
def RefersFrom (scheme host : Str) (dir : List Str) (l u : Str) : Prop :=
  (IsUrl l ∧ u = l) ∨ (Relative l ∧ ∃ f, StandsFor dir l f ∧ u = webText scheme host f)

/-- The URLs that a document leads to, if `refers` says what a location stands for in the root document and `refersIn` in the others. -/
inductive WebLeads (read : Str → Except Exn DFile) (refers : Str → Str → Prop) (refersIn : Str → Str → Str → Prop) (root : DFile) :
    Str → Prop where
  | first {l u : Str} : some l ∈ root.locations → refers l u → WebLeads read refers refersIn root u
  | next {u : Str} {d : DFile} {l u' : Str} : WebLeads read refers refersIn root u → read u = .ok d → some l ∈ d.locations →
      refersIn u l u' → WebLeads read refers refersIn root u'

/-- What a document at the URL `doc` says (RFC 3986): relative references start from the directory it is in. -/
def Rightly (doc l u : Str) : Prop :=
  (IsUrl l ∧ u = l) ∨ ∃ scheme host dir name, Site scheme host ∧ (∀ x ∈ dir ++ [name], UrlName x) ∧
    doc = webText scheme host (dir ++ [name]) ∧ RefersFrom scheme host dir l u

/-- The locations of a document are URLs or relative references. -/
def Usable (d : DFile) : Prop := ∀ l, some l ∈ d.locations → IsUrl l ∨ Relative l

end Soapfish
