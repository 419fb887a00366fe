import Verif.Simple
/-!
Independent specification for String facets: white-space normal forms, what a pattern facet accepts, and the facets
in force for a type.
-/
namespace Soapfish.Spec

/-- `t` is `s` with each white-space character replaced by a space, position by position. -/
def Replaced (s t : Str) : Prop :=
  t.length = s.length ∧ ∀ i (h : i < s.length) (h' : i < t.length),
    t[i] = if isSpace s[i] then ' ' else s[i]

/-- `t` is `s` with each maximal run of white space replaced by one space. -/
inductive Collapsed : Str → Str → Prop where
  | nil : Collapsed [] []
  | char {c s t} : isSpace c = false → Collapsed s t → Collapsed (c :: s) (c :: t)
  | run {r s t} : r ≠ [] → (∀ c ∈ r, isSpace c = true) → (∀ c, s.head? = some c → isSpace c = false) →
      Collapsed s t → Collapsed (r ++ s) (' ' :: t)

/-- `t` is the normal form of `s` under a whiteSpace facet. -/
def Normalised : WS → Str → Str → Prop
  | .replace, s, t => Replaced s t
  | .collapse, s, t => Collapsed s t
  | .preserve, s, t => t = s
  | .other, s, t => t = s

/-- What `re.match(pattern + '$', s)` accepts: every top-level alternative but the last only has to match a prefix; the
last one has to match everything, except that one final newline may be left over. -/
def PatternAccepts (p : Pattern) (s : Str) : Prop :=
  (∃ r ∈ p.init, ∃ u v, s = u ++ v ∧ r.Lang u) ∨ p.last.Lang s ∨ ∃ t, s = t ++ ['\n'] ∧ p.last.Lang t

/-- A constructor argument wins over the class attribute. -/
def given {α} : Option α → Option α → Option α
  | some a, _ => some a
  | none, b => b

/-- A length facet that is absent or 0 is not enforced. -/
def LenOk (P : Int → Prop) : Option Int → Prop
  | none => True
  | some n => n = 0 ∨ P n

/-- `t` satisfies all facets in force for a String type whose class declares `cls` and whose constructor got `a`. -/
structure StrOk (cls : StrFacets) (a : StrArgs) (t : Str) : Prop where
  pattern : ∀ p, given a.pattern cls.pattern = some p → PatternAccepts p t
  enumeration : let e := a.enumeration.getD cls.enumeration; e = [] ∨ t ∈ e
  length : LenOk (fun n => t.length = n) (given a.length cls.length)
  minLength : LenOk (fun n => n ≤ t.length) (given a.minLength cls.minLength)
  maxLength : LenOk (fun n => t.length ≤ n) (given a.maxLength cls.maxLength)

end Soapfish.Spec
