import Verif.Spec.Values
/-
Vocabulary for stating what reading a document means: which child elements belong to a field, which changes to a
document are irrelevant, and what values a field may hold.
-/
namespace Soapfish

/-- The node is an element whose local name is the field's name or tag name. -/
def Field.Claims (f : Field) (u : Xml) : Prop :=
  ∃ q a t k, u = .elem q a t k ∧ (q.loc = f.name ∨ f.tagname = some q.loc)

/-- The same as a test. -/
def Field.claims (f : Field) : Xml → Bool
  | .elem q _ _ _ => q.loc = f.name || f.tagname = some q.loc
  | _ => false

/-- The same document except for the namespaces of elements. -/
inductive Renamed : Xml → Xml → Prop where
  | elem {q q' a t k k'} : q.loc = q'.loc → All2 Renamed k k' → Renamed (.elem q a t k) (.elem q' a t k')
  | comment : Renamed .comment .comment
  | pi : Renamed .pi .pi

/-- `Owns T c f`: when an element is read as an instance of class `c`, field `f` looks for its elements among the
children of that element: `f` is a field of `c`, of a group referred to by `c`, or - if `c` is a Choice - of the type
of one of its alternatives. -/
inductive Owns (T : Table) : ClsId → Field → Prop where
  | field {c f} : (T c).choice = false → f ∈ (T c).elems → Owns T c f
  | group {c g c' f} : g ∈ (T c).groups → g.type = .complex c' → Owns T c' f → Owns T c f
  | choice {c g c' f} : (T c).choice = true → g ∈ (T c).elems → g.type = .complex c' → Owns T c' f → Owns T c f

/-- `Shuffled T c ks ks'`: children of an element of class `c` that differ, here or further down, only by
* comments and elements no field claims, added or removed anywhere,
* swapping neighbours not claimed by a common field,
* the namespaces of elements. -/
inductive Shuffled (T : Table) : ClsId → List Xml → List Xml → Prop where
  | nil {c} : Shuffled T c [] []
  | cons {c q q' a t k k' ks ks'} : q.loc = q'.loc →
      (∀ f c', Owns T c f → f.Claims (.elem q a t k) → f.type = .complex c' → Shuffled T c' k k') →
      Shuffled T c ks ks' → Shuffled T c (.elem q a t k :: ks) (.elem q' a t k' :: ks')
  | pi {c ks ks'} : Shuffled T c ks ks' → Shuffled T c (.pi :: ks) (.pi :: ks')
  | add {c u ks ks'} : (∀ f, Owns T c f → ¬ f.Claims u) → u ≠ .pi → Shuffled T c ks ks' → Shuffled T c ks (u :: ks')
  | remove {c u ks ks'} : (∀ f, Owns T c f → ¬ f.Claims u) → u ≠ .pi → Shuffled T c ks ks' →
      Shuffled T c (u :: ks) ks'
  | swap {c u w ks} : (∀ f, Owns T c f → ¬ (f.Claims u ∧ f.Claims w)) → Shuffled T c (u :: w :: ks) (w :: u :: ks)
  | trans {c ks ks' ks''} : Shuffled T c ks ks' → Shuffled T c ks' ks'' → Shuffled T c ks ks''

/-- `ReadAs T N n f u w`: an element `u` read by a single-valued field gives `w`: NIL if it is marked
`xsi:nil='true'`, else its text converted by the simple type, or an instance read from the element alone. -/
inductive ReadAs (T : Table) (N n : Nat) (f : Field) : Xml → Val → Prop where
  | nil {u} : u.attr qNil = some py"true" → f.nillable → ReadAs T N n f u .nil
  | simple {q a t k s v w} : attrGet a qNil ≠ some py"true" → f.type = .simple s →
      s.pythonvalue (textAtom t) = .ok v → s.accept v = .ok w → ReadAs T N n f (.elem q a t k) (.atom w)
  | complex {u c v} : u.attr qNil ≠ some py"true" → f.type = .complex c → parseCls T N n c u = .ok v →
      ReadAs T N n f u v

/-- The same for an item of a list field, where any non-empty `xsi:nil` means NIL. -/
inductive ReadItem (T : Table) (N n : Nat) (f : Field) : Xml → Val → Prop where
  | nil {u b} : u.attr qNil = some b → b ≠ [] → f.nillable → ReadItem T N n f u .nil
  | simple {q a t k s v w} : (attrGet a qNil = none ∨ attrGet a qNil = some []) → f.type = .simple s →
      s.pythonvalue (textAtom t) = .ok v → s.accept v = .ok w → ReadItem T N n f (.elem q a t k) (.atom w)
  | complex {u c v} : (u.attr qNil = none ∨ u.attr qNil = some []) → f.type = .complex c → parseCls T N n c u = .ok v →
      ReadItem T N n f u v

/-- What a single-valued or list field holds in a new instance: an empty TypedList, or the declared default as accepted
by the field. -/
def EmptyValue (T : Table) (f : Field) (w : Val) : Prop :=
  if f.kind = .list then w = .list true [] else f.acceptItem T f.default = .ok w

/-- `g` is the first of the fields that claims the element. -/
def FirstClaim (fs : List Field) (g : Field) (x : Xml) : Prop :=
  ∃ pre post, fs = pre ++ g :: post ∧ g.Claims x ∧ ∀ f ∈ pre, ¬ f.Claims x

mutual
/-- `HasType T t v`: `v` is a value of the declared type, recursively: for a simple type a result of its `accept`; for a
class None or an instance of the class (or a subclass) with exactly the declared fields, each well typed. -/
inductive HasType (T : Table) : FType → Val → Prop where
  | simple {s a b} : SType.accept s a = .ok b → HasType T (.simple s) (.atom b)
  | none {c} : HasType T (.complex c) Val.none
  | inst {c c' fs x} : c ∈ (T c').mro → fs.map (·.1) = (T c').fields.map (·.name) →
      (∀ f v, f ∈ (T c').fields → Dict.get? fs f.name = some v → FieldOk T f v) →
      HasType T (.complex c) (.inst c' fs x)
/-- NIL if the field is nillable, or a value of the field's type. -/
inductive ItemOk (T : Table) : Field → Val → Prop where
  | nil {f} : f.nillable = true → ItemOk T f .nil
  | val {f v} : HasType T f.type v → ItemOk T f v
/-- What a field may hold: a list field a list of at most `maxOccurs` items, other fields a single one. -/
inductive FieldOk (T : Table) : Field → Val → Prop where
  | single {f v} : f.kind ≠ .list → ItemOk T f v → FieldOk T f v
  | list {f t is} : f.kind = .list → (∀ v, v ∈ is → ItemOk T f v) →
      (∀ m, f.maxOccurs = some (.int m) → is ≠ [] → (is.length : Int) ≤ m) → FieldOk T f (.list t is)
end

/-- Sanity of a class table: every class is a subclass of itself, and defaults of fields with a class type are None,
NIL or well-typed instances (defaults of simple types are checked by the code itself). -/
structure Table.Sane (T : Table) : Prop where
  names : T.Wf
  self : ∀ c, c ∈ (T c).mro
  defaults : ∀ c f c', f ∈ (T c).fields → f.type = .complex c' → f.default = .nil ∨ HasType T (.complex c') f.default

end Soapfish
