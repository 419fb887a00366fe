import Verif.Complex
/-
Class metadata: how `_meta` is computed from the class body and its bases (soapfish/xsd.py:542-547, 825-858).
-/
namespace Soapfish

/-- A descriptor object.  `num` is `_creation_number`, unique to the object (soapfish/xsd.py:564-565). -/
structure Desc where
  kind : Kind
  num : Nat
  deriving DecidableEq

/-- What a name is bound to in a class body: a descriptor or anything else (methods, constants, None). -/
inductive Item where
  | desc (d : Desc)
  | other

/-- `cls.__dict__` -/
abbrev ClassDict := List (Str × Item)

/-- `getattr(cls, name)`: the binding in the first class of the MRO that has one.  (Names of data descriptors of `type`,
such as `__name__`, are not considered; descriptors of xsd have no `__get__`.) -/
def getattrCls : List ClassDict → Str → Option Item
  | [], _ => none
  | d :: r, n => match Dict.get? d n with
    | some i => some i
    | none => getattrCls r n

/-- Order of str: by code points. -/
def strLe : Str → Str → Bool
  | [], _ => true
  | _ :: _, [] => false
  | a :: as, b :: bs => if a = b then strLe as bs else a.toNat < b.toNat

/-- Insert before the first element that is not smaller. -/
def insertBy {α : Type} (le : α → α → Bool) (a : α) : List α → List α
  | [] => [a]
  | b :: l => if le a b then a :: b :: l else b :: insertBy le a l

/-- `sorted(l)`: a stable sort. -/
def sortBy {α : Type} (le : α → α → Bool) : List α → List α
  | [] => []
  | a :: l => insertBy le a (sortBy le l)

/-- Each name once. -/
def uniq : List Str → List Str
  | [] => []
  | a :: l => if a ∈ l then uniq l else a :: uniq l

/-- `dir(cls)`: the names bound in the class and its bases, each once, sorted. -/
def dirCls (mro : List ClassDict) : List Str :=
  sortBy strLe (uniq (mro.flatMap fun d => d.map (·.1)))

/-- What the loop over `dir(cls)` has collected; `names` is the attribute `_name` of the descriptors, by number. -/
structure Scan where
  fields : List Desc := []
  attributes : List Desc := []
  groups : List Desc := []
  names : Nat → Str := fun _ => []

/-- The body of the loop (soapfish/xsd.py:833-843). -/
def scanOne (mro : List ClassDict) (s : Scan) (attr : Str) : Scan :=
  match getattrCls mro attr with
  | some (.desc item) =>
    let names := fun n => if n = item.num then attr else s.names n
    if item.kind = .attribute then { s with names := names, attributes := s.attributes ++ [item] }
    else if item.kind.isGroup then { s with names := names, groups := s.groups ++ [item] }
    else { s with names := names, fields := s.fields ++ [item] }
  | _ => s

/-- `sorted(l, key=lambda f: f._creation_number)`, a stable sort. -/
def sortNum (l : List Desc) : List Desc := sortBy (fun a b => a.num ≤ b.num) l

structure MetaInfo where
  fields : List Desc
  attributes : List Desc
  groups : List Desc
  allelements : List Desc
  all : List Desc
  name : Nat → Str

/-- `ComplexTypeMetaInfo(cls)` (soapfish/xsd.py:827-848); `mro` are the dictionaries of the class and its bases in
resolution order. -/
def metaInfo (mro : List ClassDict) : MetaInfo :=
  let s := (dirCls mro).foldl (scanOne mro) {}
  let fields := sortNum s.fields
  let attributes := sortNum s.attributes
  let groups := sortNum s.groups
  { fields := fields, attributes := attributes, groups := groups, allelements := sortNum (fields ++ groups),
    all := sortNum (fields ++ groups ++ attributes), name := s.names }

end Soapfish
