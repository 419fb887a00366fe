import Verif.Spec.Values
/-
Vocabulary for stating what a rendered instance looks like.
-/
namespace Soapfish

/-- The namespace for a field inside content whose own namespace is `ns`. -/
def Field.nsIn (f : Field) (ns : Option Str) : Option Str :=
  match f.nspace with
  | some n => some n
  | none => ns

/-- The tag of a child: qualified exactly when the element form is 'qualified' and there is a (non-empty) namespace. -/
def childName (f : Field) (ns : Option Str) (qualified : Bool) : QName :=
  match qualified, f.nsIn ns with
  | true, some (c :: cs) => ⟨some (c :: cs), f.writtenName⟩
  | _, _ => ⟨none, f.writtenName⟩

/-- The items found by iterating over the value of a list field. -/
inductive Items : Val → List Val → Prop where
  | list {t is} : Items (.list t is) is
  | text {s} : Items (.atom (.str s)) (s.map fun ch => .atom (.str [ch]))

/-- `Child T n f ns q v k`: the element `k` shows the value `v` (not None, or an item of a list) of field `f`: NIL as an
empty element with `xsi:nil="true"`, a simple value as text, an instance by its own rendering. -/
inductive Child (T : Table) (n : Nat) (f : Field) (ns : Option Str) (q : Bool) : Val → Xml → Prop where
  | nil : Child T n f ns q .nil (.elem (childName f ns q) [(qNil, py"true")] none [])
  | simple {s v txt} : v ≠ .nil → f.type = .simple s → s.xmlvalue v.toAtom = .ok txt →
      Child T n f ns q v (.elem (childName f ns q) s.extraAttrs txt [])
  | complex {c v o} : v ≠ .nil → f.type = .complex c → renderCls T n c v (f.nsIn ns) q = .ok o →
      Child T n f ns q v (.elem (childName f ns q) (attrSetAll [] o.attrs) none o.kids)

/-- Is the value an instance of a Group? -/
def Val.IsGroup (T : Table) (v : Val) : Prop := ∃ c fs x, v = .inst c fs x ∧ (T c).isGroup = true

/-- `Contributes T n f ns q v ks`: the children a field with value `v` adds to the element. -/
inductive Contributes (T : Table) (n : Nat) (f : Field) (ns : Option Str) (q : Bool) : Val → List Xml → Prop where
  | attribute {v} : f.kind = .attribute → Contributes T n f ns q v []
  | absent : f.kind = .element → Contributes T n f ns q Val.none []
  | single {v k} : f.kind = .element → v ≠ Val.none → Child T n f ns q v k → Contributes T n f ns q v [k]
  | list {v is ks} : f.kind = .list → Items v is → All2 (Child T n f ns q) is ks →
      (∀ m, f.minOccurs = some m → m ≠ 0 → m ≤ is.length) →
      (∀ m, f.maxOccurs = some (.int m) → m ≠ 0 → (is.length : Int) ≤ m) → Contributes T n f ns q v ks
  | noName : f.kind = .classNamed → Contributes T n f ns q Val.none []
  | noValue {c fs x} : f.kind = .classNamed → Dict.get? fs py"value" = some Val.none →
      Contributes T n f ns q (.inst c fs x) []
  | named {c fs x loc c' fs' x' s t o} : f.kind = .classNamed → Dict.get? fs py"name" = some (.atom (.str loc)) →
      Dict.get? fs py"value" = some (.inst c' fs' x') → (T c').schema = some s → f.type = .complex t →
      renderCls T n t (.inst c' fs' x') s.targetNamespace s.qualified = .ok o →
      Contributes T n f ns q (.inst c fs x)
        [.elem (QName.mk' s.targetNamespace loc) (attrSetAll [] o.attrs) none o.kids]
  | noNameText {c fs x name c' fs' x' s t o} : f.kind = .classNamed → Dict.get? fs py"name" = some name →
      (∀ loc, name ≠ .atom (.str loc)) →
      Dict.get? fs py"value" = some (.inst c' fs' x') → (T c').schema = some s → f.type = .complex t →
      renderCls T n t (.inst c' fs' x') s.targetNamespace s.qualified = .ok o →
      Contributes T n f ns q (.inst c fs x)
        [.elem (QName.mk' s.targetNamespace py"None") (attrSetAll [] o.attrs) none o.kids]
  | group {v c o} : f.kind = .ref ∨ f.kind = .content → v ≠ Val.none → v.IsGroup T → f.type = .complex c →
      renderCls T n c v ns q = .ok o → Contributes T n f ns q v o.kids
  | groupAsText {v s} : f.kind = .ref ∨ f.kind = .content → v.IsGroup T → f.type = .simple s →
      Contributes T n f ns q v []
  | other {v a t ks} : f.kind = .ref ∨ f.kind = .content → v ≠ Val.none →
      Contributes T n f ns q v [.elem (QName.mk' ns f.writtenName) a t ks]

end Soapfish
