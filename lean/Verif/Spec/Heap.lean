import Verif.Heap
/-
Vocabulary for histories of operations on objects.
-/
namespace Soapfish

/-- `Accepts T h f v w`: given `v`, a field (or a list with this item type) stores `w`: NIL only if nillable; for a simple
type the result of its `accept`; for a class None or an instance of the class or a subclass, itself.  (The Header classes of
soap11 and soap12 accept everything.) -/
inductive Accepts (T : Table) (h : Heap) (f : Field) : HVal → HVal → Prop where
  | nil : f.nillable = true → Accepts T h f .nil .nil
  | simple {v s b} : v ≠ .nil → f.type = .simple s → s.accept v.toAtom = .ok b → Accepts T h f v (.atom b)
  | none {c} : f.type = .complex c → Accepts T h f HVal.none HVal.none
  | inst {c a c' fs} : f.type = .complex c → h.cells[a]? = some (.inst c' fs) → c ∈ (T c').mro →
      Accepts T h f (.ref a) (.ref a)
  | header {c v} : f.type = .complex c → (T c).header = true → v ≠ .nil → Accepts T h f v v

/-- The heap after a history that starts with nothing. -/
def heapAfter (T : Table) (did : ClsId → Str → Nat) (N : Nat) (ops : List Op) : Heap := (runOps T did N ops {}).2

/-- What the operations of a history returned. -/
def logOf (T : Table) (did : ClsId → Str → Nat) (N : Nat) (ops : List Op) : List (Op × Except Exn HVal) :=
  (runOps T did N ops {}).1

/-- The values successfully appended to the list at `a`, in order. -/
def appended (a : Addr) : List (Op × Except Exn HVal) → List HVal
  | [] => []
  | (.append (.ref b) v, .ok _) :: r => if b = a then v :: appended a r else appended a r
  | _ :: r => appended a r

/-- The content of the field values of an object, lists with their items. -/
def view (h : Heap) (a : Addr) : Option (ClsId × List (Str × HVal × Option (List HVal))) :=
  match h.cells[a]? with
  | some (.inst c fs) => some (c, fs.map fun p => (p.1, p.2,
      match p.2 with
      | .ref l => match h.cells[l]? with
        | some (.list _ items) => some items
        | _ => none
      | _ => none))
  | _ => none

/-- An atom, NIL, or an existing instance; not a list. -/
def Plain (h : Heap) (v : HVal) : Prop := ∀ l, v = .ref l → ∃ c fs, h.cells[l]? = some (.inst c fs)

/-- The program never stores a list object in a field itself (it may of course append to the lists instances come
with). -/
def KeepsLists (T : Table) (did : ClsId → Str → Nat) (N : Nat) : List Op → Heap → Prop
  | [], _ => True
  | op :: ops, h =>
    (match op with
      | .new _ kwargs => ∀ p ∈ kwargs, Plain h p.2
      | .set _ _ v => Plain h v
      | _ => True) ∧ KeepsLists T did N ops (op.run T did N h).2

/-- Groups (the classes of Ref fields) have no ListElement and no Ref of their own. -/
def FlatGroups (T : Table) : Prop :=
  ∀ c, ∀ f ∈ (T c).fields, f.kind = .ref → ∀ g, f.type = .complex g → ∀ f' ∈ (T g).fields, f'.kind ≠ .list ∧ f'.kind ≠ .ref

/-- The operation changes the object at `a` or one of its lists. -/
def Mutates (h : Heap) (a : Addr) (op : Op) : Prop :=
  (∃ name v, op = .set (.ref a) name v) ∨
  ∃ c fs n l, h.cells[a]? = some (.inst c fs) ∧ Dict.get? fs n = some (.ref l) ∧
    ((∃ v, op = .append (.ref l) v) ∨ ∃ items, op = .raw (.ref l) items)

end Soapfish
