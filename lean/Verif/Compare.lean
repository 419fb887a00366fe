import Verif.Complex
/-
Comparing and hashing instances (soapfish/xsd.py:860-861, 893-905), with the operators `functools.total_ordering` derives
and the dispatch of Python's comparison operators.

The element an instance was parsed from is a node of an arbitrary type `ν`; `ser` stands for `etree.tostring`, which
yields bytes, compared lexicographically.
-/
namespace Soapfish

/-- `a < b` for bytes. -/
def Bytes.lt : Bytes → Bytes → Bool
  | _, [] => false
  | [], _ :: _ => true
  | a :: as, b :: bs => if a = b then Bytes.lt as bs else a < b

/-- What comparison sees of an instance: its class, its identity, and `_xmlelement` if it has one. -/
structure PyInst (ν : Type) where
  cls : ClsId
  ident : Nat
  node : Option ν

section
variable {ν : Type} (ser : ν → Bytes) (T : Table)

/-- `__eq__` (soapfish/xsd.py:897-900) -/
def dunderEq (a b : PyInst ν) : Bool :=
  match a.node, b.node with
  | some x, some y => ser x = ser y
  | _, _ => false

/-- `__lt__` (soapfish/xsd.py:902-905) -/
def dunderLt (a b : PyInst ν) : Bool :=
  match a.node, b.node with
  | some x, some y => Bytes.lt (ser x) (ser y)
  | _, _ => false

/-- `__hash__` (soapfish/xsd.py:893-895); `h` is `hash` of bytes. -/
def dunderHash (h : Bytes → Int) (a : PyInst ν) : Int :=
  match a.node with
  | some x => h (ser x)
  | none => a.ident

/-- `__gt__`, `__le__`, `__ge__` as derived from `__lt__` by `functools.total_ordering` (CPython Lib/functools.py,
`_gt_from_lt`, `_le_from_lt`, `_ge_from_lt`; soapfish/xsd.py:860).  `!=` is the negation of `==`. -/
def dunderGt (a b : PyInst ν) : Bool := !dunderLt ser a b && !dunderEq ser a b
def dunderLe (a b : PyInst ν) : Bool := dunderLt ser a b || dunderEq ser a b
def dunderGe (a b : PyInst ν) : Bool := !dunderLt ser a b

/-- The right operand's method is tried first if its class is a proper subclass (CPython `do_richcompare`). -/
def reflected (a b : PyInst ν) : Bool := b.cls ≠ a.cls && isSub T b.cls a.cls

/-- The operators. -/
def pyEq (a b : PyInst ν) : Bool := if reflected T a b then dunderEq ser b a else dunderEq ser a b
def pyLt (a b : PyInst ν) : Bool := if reflected T a b then dunderGt ser b a else dunderLt ser a b
def pyGt (a b : PyInst ν) : Bool := if reflected T a b then dunderLt ser b a else dunderGt ser a b
def pyLe (a b : PyInst ν) : Bool := if reflected T a b then dunderGe ser b a else dunderLe ser a b
def pyGe (a b : PyInst ν) : Bool := if reflected T a b then dunderLe ser b a else dunderGe ser a b

end

/-- `_xmlelement` of an instance. -/
def Val.node : Val → Option Xml
  | .inst _ _ x => x
  | _ => Option.none

/-- An instance as comparison sees it (`ident` is `id(self)`). -/
def Val.seen (ident : Nat) (v : Val) : PyInst Xml :=
  { cls := match v with | .inst c _ _ => c | _ => 0, ident := ident, node := v.node }

end Soapfish
