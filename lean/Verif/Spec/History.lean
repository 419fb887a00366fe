import Verif.HeapParse
/-
Vocabulary for what objects hold, and for histories with parsing.
-/
namespace Soapfish

/-- `Shows h lo v w`: on the heap `h`, the object (or atom) `v` holds the tree `w`, all of its objects have addresses from
`lo` on.  The elements that instances were parsed from (`_xmlelement`) are left out. -/
inductive Shows (h : Heap) (lo : Addr) : HVal → Val → Prop where
  | nil : Shows h lo .nil .nil
  | atom (a : Atom) : Shows h lo (.atom a) (.atom a)
  | list {a o items vs} : lo ≤ a → h.cells[a]? = some (.list o items) → items.length = vs.length →
      (∀ (i : Nat) v w, items[i]? = some v → vs[i]? = some w → Shows h lo v w) → Shows h lo (.ref a) (.list o.isSome vs)
  | inst {a c fs vs x} : lo ≤ a → h.cells[a]? = some (.inst c fs) → fs.map (·.1) = vs.map (·.1) →
      (∀ n v w, Dict.get? fs n = some v → Dict.get? vs n = some w → Shows h lo v w) → Shows h lo (.ref a) (.inst c vs x)

/-- No object of `h` is different in `h'`. -/
def Untouched (h h' : Heap) : Prop := ∀ b, b < h.cells.length → h'.cells[b]? = h.cells[b]?

/-- Descriptors with one identity are one descriptor. -/
def Descriptors (T : Table) (did : ClsId → Str → Nat) : Prop :=
  ∀ c f c' f', f ∈ (T c).fields → f' ∈ (T c').fields → did c f.name = did c' f'.name → f = f'

/-- Declared defaults are atoms or NIL. -/
def PlainDefaults (T : Table) : Prop := ∀ c, ∀ f ∈ (T c).fields, f.default = .nil ∨ ∃ a, f.default = .atom a

/-- The operation does not assign to the object at `p`. -/
def SparesObject (p : Addr) (op : Op) : Prop := ∀ n v, op ≠ .set (.ref p) n v

end Soapfish
