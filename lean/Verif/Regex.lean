import Verif.Py
/-
Regular expressions as used by the `pattern` facet: `re.match(pattern + '$', value)`.

Only classical operators are modelled (no back-references, look-around or inner anchors), so that the existence of
a match does not depend on back-tracking order.
-/
namespace Soapfish

inductive Re where
  | empty
  | eps
  | cls (p : Char → Bool)
  | cat (a b : Re)
  | alt (a b : Re)
  | star (a : Re)

/-- Independent specification: the language of an expression. -/
inductive Re.Lang : Re → Str → Prop where
  | eps : Lang .eps []
  | cls {p c} : p c = true → Lang (.cls p) [c]
  | cat {a b s t} : Lang a s → Lang b t → Lang (.cat a b) (s ++ t)
  | altL {a b s} : Lang a s → Lang (.alt a b) s
  | altR {a b s} : Lang b s → Lang (.alt a b) s
  | starNil {a} : Lang (.star a) []
  | starCons {a s t} : Lang a s → Lang (.star a) t → Lang (.star a) (s ++ t)

def Re.nullable : Re → Bool
  | .empty => false
  | .eps => true
  | .cls _ => false
  | .cat a b => a.nullable && b.nullable
  | .alt a b => a.nullable || b.nullable
  | .star _ => true

/-- Brzozowski derivative. -/
def Re.deriv (c : Char) : Re → Re
  | .empty => .empty
  | .eps => .empty
  | .cls p => if p c then .eps else .empty
  | .cat a b => if a.nullable then .alt (.cat (a.deriv c) b) (b.deriv c) else .cat (a.deriv c) b
  | .alt a b => .alt (a.deriv c) (b.deriv c)
  | .star a => .cat (a.deriv c) (.star a)

/-- Does the whole text match? (`re.fullmatch`) -/
def Re.full (r : Re) : Str → Bool
  | [] => r.nullable
  | c :: cs => (r.deriv c).full cs

/-- Does some prefix of the text match? (`re.match`) -/
def Re.pre (r : Re) : Str → Bool
  | [] => r.nullable
  | c :: cs => r.nullable || (r.deriv c).pre cs

/-- `re.match(r + '$', s)` for an expression without top-level alternation: `$` matches at the end and before a
final newline. -/
def Re.dollar (r : Re) (s : Str) : Bool :=
  r.full s || (s.getLast? == some '\n' && r.full s.dropLast)

/-- A `pattern` facet: the top-level alternatives `b₁|…|bₙ` (`n ≥ 1`, last one separate). -/
structure Pattern where
  init : List Re
  last : Re

/-- `re.match(p + '$', s)`: appending `'$'` to the text of the pattern (soapfish/xsd.py:155, 383) anchors only the
last top-level alternative. -/
def Pattern.matches (p : Pattern) (s : Str) : Bool := p.init.any (·.pre s) || p.last.dollar s

/-- The language of the pattern as XML Schema defines it: the whole value is in the language of one alternative. -/
def Pattern.Lang (p : Pattern) (s : Str) : Prop := (∃ r ∈ p.init, r.Lang s) ∨ p.last.Lang s

/-! Constructors for writing patterns. -/
def Re.chr (c : Char) : Re := .cls (· == c)
def Re.range (a b : Char) : Re := .cls (fun c => a.toNat ≤ c.toNat && c.toNat ≤ b.toNat)
def Re.opt (r : Re) : Re := .alt .eps r
def Re.plus (r : Re) : Re := .cat r (.star r)

/-- `[-+]?[0-9]+` (soapfish/xsd.py:441) -/
def intPattern : Pattern := ⟨[], .cat (.opt (.cls (fun c => c == '-' || c == '+'))) (.plus (.range '0' '9'))⟩

end Soapfish
