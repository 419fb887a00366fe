import Verif.Complex
/-
Objects with identity: instances and lists live at addresses, so that aliasing, mutation and operations that fail half
way can be described (soapfish/xsd.py:572-602, 695-723, 749-764, 861-886).

The values of `Verif/Complex.lean` are trees; here a field holds an atom, NIL or an address.  A program using the API
is a history of operations on a heap; an operation returns a value or an exception, and a new heap in either case.
-/
namespace Soapfish

abbrev Addr := Nat

inductive HVal where
  | nil
  | atom (a : Atom)
  | ref (a : Addr)
  deriving DecidableEq

abbrev HVal.none : HVal := .atom .none

/-- An object.  `inst c fields` is an instance of class `c` with its attribute dictionary (`_xmlelement` left out);
`list owner items` a TypedList made for a ListElement, or a plain Python list (`none`). -/
inductive Cell where
  | inst (c : ClsId) (fields : List (Str × HVal))
  | list (owner : Option Field) (items : List HVal)

/-- `protos` are the instances cached by descriptors of kind Ref (`Element._type`, soapfish/xsd.py:572-579), by the
identity of the descriptor.  Those cached by other descriptors are never handed out and are left out. -/
structure Heap where
  cells : List Cell := []
  protos : List (Nat × Addr) := []

/-- An operation that may fail, and changes the heap in either case. -/
abbrev Act (α : Type) := Heap → Except Exn α × Heap

def Act.andThen {α β : Type} (r : Except Exn α × Heap) (k : α → Act β) : Except Exn β × Heap :=
  match r with
  | (.ok a, h) => k a h
  | (.error e, h) => (.error e, h)

/-- A new object at a fresh address. -/
def Heap.alloc (h : Heap) (c : Cell) : Addr × Heap := (h.cells.length, { h with cells := h.cells ++ [c] })

/-- The heap with the object at one address replaced. -/
def Heap.put (h : Heap) (a : Addr) (c : Cell) : Heap := { h with cells := h.cells.set a c }

/-- What a simple type sees. -/
def HVal.toAtom : HVal → Atom
  | .atom a => a
  | _ => .other 0

/-- `isinstance(value, cls)` -/
def isInst (T : Table) (h : Heap) (a : Addr) (c : ClsId) : Bool :=
  match h.cells[a]? with
  | some (.inst c' _) => isSub T c' c
  | _ => false

/-- `_type.accept(value)` (soapfish/xsd.py:907-914 for classes). -/
def FType.acceptH (T : Table) (h : Heap) (t : FType) (v : HVal) : Except Exn HVal :=
  match t with
  | .simple s => (s.accept v.toAtom).map .atom
  | .complex c =>
    if (T c).header then .ok v
    else match v with
      | .atom .none => .ok v
      | .ref a => if isInst T h a c then .ok v else .error .valueError
      | _ => .error .valueError
  | .any => .error .notImplemented

/-- NIL only where nillable, other values through the type (soapfish/xsd.py:596-602, 756-761). -/
def Field.acceptItemH (T : Table) (h : Heap) (f : Field) (v : HVal) : Except Exn HVal :=
  if v = .nil then (if f.nillable then .ok .nil else .error .valueError)
  else f.type.acceptH T h v

/-- `field.accept(value)` (soapfish/xsd.py:593-602, 789-790); `N` is the depth available for instantiating the
field's class when its type is evaluated. -/
def Field.acceptH (T : Table) (N : Nat) (h : Heap) (f : Field) (v : HVal) : Except Exn HVal :=
  if f.kind = .list then .ok v
  else do
    evaluate (newInst T N) f.type
    f.acceptItemH T h v

/-- Declared defaults.  Simplification: a default that is an instance or a list (one object shared by all instances)
is not modelled and treated as an object no type accepts. -/
def Val.toH : Val → HVal
  | .nil => .nil
  | .atom a => .atom a
  | _ => .atom (.other 2)

/-- `copy.copy(instance)`: a new object with the same dictionary (soapfish/xsd.py:721-723).  The objects that
`ComplexType.__new__` makes and the dictionary update throws away are left out. -/
def copyInst (a : Addr) : Act HVal := fun h =>
  match h.cells[a]? with
  | some (.inst c fs) => let (b, h) := h.alloc (.inst c fs); (.ok (.ref b), h)
  | _ => (.error .attributeError, h)

/-- The instance cached by a Ref descriptor, made on first use (soapfish/xsd.py:572-579). -/
def prototype (did : Nat) (nw : Act HVal) : Act Addr := fun h =>
  match h.protos.lookup did with
  | some a => (.ok a, h)
  | none => Act.andThen (nw h) fun v h =>
    match v with
    | .ref a => (.ok a, { h with protos := (did, a) :: h.protos })
    | _ => (.error .attributeError, h)

/-- `field.empty_value()` (soapfish/xsd.py:581-588, 721-723, 745-746, 792-793) -/
def emptyH (nw : ClsId → Act HVal) (did : Nat) (f : Field) : Act HVal := fun h =>
  match f.kind with
  | .list => let (a, h) := h.alloc (.list (some f) []); (.ok (.ref a), h)
  | .content => (.ok HVal.none, h)
  | .ref =>
    match f.type with
    | .complex c => Act.andThen (prototype did (nw c) h) fun a h => copyInst a h
    | _ => (.ok (.atom (.other 1)), h)
  | _ => (.ok f.default.toH, h)

/-- The loop of `ComplexType.__new__` (soapfish/xsd.py:870-871): empty value, accepted. -/
def emptyFields (T : Table) (N : Nat) (nw : ClsId → Act HVal) (did : Str → Nat) :
    List Field → Act (List (Str × HVal))
  | [], h => (.ok [], h)
  | f :: fs, h =>
    Act.andThen (emptyH nw (did f.name) f h) fun v h =>
    Act.andThen (f.acceptH T N h v, h) fun w h =>
    Act.andThen (emptyFields T N nw did fs h) fun r h => (.ok ((f.name, w) :: r), h)

/-- `ComplexType.__new__` (soapfish/xsd.py:868-872).  `did c name` identifies the descriptor `name` of class `c` (an
inherited descriptor is one object). -/
def newH (T : Table) (did : ClsId → Str → Nat) : Nat → ClsId → Act HVal
  | 0, _, h => (.error .recursionError, h)
  | n + 1, c, h =>
    Act.andThen (emptyFields T n (newH T did n) (did c) (T c).fields h) fun fs h =>
      let (a, h) := h.alloc (.inst c fs); (.ok (.ref a), h)

/-- `instance.name = value` (soapfish/xsd.py:878-886) -/
def setH (T : Table) (N : Nat) (o : HVal) (name : Str) (v : HVal) : Act HVal := fun h =>
  match o with
  | .ref a =>
    match h.cells[a]? with
    | some (.inst c fs) =>
      Act.andThen (findField (T c).fields name, h) fun f h =>
      Act.andThen (f.acceptH T N h v, h) fun w h => (.ok HVal.none, h.put a (.inst c (Dict.set fs name w)))
    | _ => (.error .attributeError, h)
  | _ => (.error .attributeError, h)

/-- The keyword arguments of the constructor (soapfish/xsd.py:874-876). -/
def initH (T : Table) (N : Nat) (o : HVal) : List (Str × HVal) → Act HVal
  | [], h => (.ok o, h)
  | (k, v) :: r, h => Act.andThen (setH T N o k v h) fun _ h => initH T N o r h

/-- `list.append(value)`; for a TypedList soapfish/xsd.py:754-764. -/
def appendH (T : Table) (N : Nat) (l : HVal) (v : HVal) : Act HVal := fun h =>
  match l with
  | .ref a =>
    match h.cells[a]? with
    | some (.list (some f) items) =>
      Act.andThen (evaluate (newInst T N) f.type, h) fun _ h =>
      Act.andThen (f.acceptItemH T h v, h) fun w h =>
      Act.andThen (ifGiven f.maxOccurs (fun m => raiseIf (m.exceeded (items.length + 1)) .valueError), h) fun _ h =>
        (.ok HVal.none, h.put a (.list (some f) (items ++ [w])))
    | some (.list none items) => (.ok HVal.none, h.put a (.list none (items ++ [v])))
    | _ => (.error .attributeError, h)
  | _ => (.error .attributeError, h)

/-- What a program can do.  `raw l items` stands for every list operation TypedList does not override (`extend`,
`insert`, item assignment, `clear`, ...), leaving any content. -/
inductive Op where
  | new (c : ClsId) (kwargs : List (Str × HVal))
  | set (o : HVal) (name : Str) (v : HVal)
  | append (l v : HVal)
  | list (items : List HVal)
  | raw (l : HVal) (items : List HVal)

def Op.run (T : Table) (did : ClsId → Str → Nat) (N : Nat) : Op → Act HVal
  | .new c kwargs, h => Act.andThen (newH T did N c h) fun o h => initH T N o kwargs h
  | .set o name v, h => setH T N o name v h
  | .append l v, h => appendH T N l v h
  | .list items, h => let (a, h) := h.alloc (.list none items); (.ok (.ref a), h)
  | .raw l items, h =>
    match l with
    | .ref a =>
      match h.cells[a]? with
      | some (.list owner _) => (.ok HVal.none, h.put a (.list owner items))
      | _ => (.error .attributeError, h)
    | _ => (.error .attributeError, h)

/-- A history: the program goes on after an exception.  The list records what every operation returned. -/
def runOps (T : Table) (did : ClsId → Str → Nat) (N : Nat) : List Op → Heap → List (Op × Except Exn HVal) × Heap
  | [], h => ([], h)
  | op :: ops, h =>
    let (r, h) := op.run T did N h
    let (rs, h) := runOps T did N ops h
    ((op, r) :: rs, h)

end Soapfish
