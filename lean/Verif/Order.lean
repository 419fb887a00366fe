import Verif.Py
/-
The order of complex types in generated code (soapfish/xsd2py.py:81-119).
-/
namespace Soapfish

/-- The `complexContent` of a complex type: absent, an extension or a restriction of a base, or with neither. -/
inductive TypeContent where
  | none
  | extension (base : Str)
  | restriction (base : Str)
  | neither
  deriving DecidableEq

/-- A named complex type as `_reorder_complexTypes` looks at it; `doc` stands for everything else. -/
structure TypeDecl where
  name : Str
  content : TypeContent
  doc : Nat := 0
  deriving DecidableEq

/-- `weights`: name, position and base, the latest entry first. -/
abbrev Weights := List (Str × Nat × Str)

/-- The variable `base` after looking at one type (soapfish/xsd2py.py:85-94); `none` is an unbound variable. -/
def boundBase (base : Option Str) : TypeContent → Option Str
  | .none => some []
  | .extension b => some b
  | .restriction b => some b
  | .neither => base

/-- The first loop of `_reorder_complexTypes` (soapfish/xsd2py.py:83-96). A content with neither extension nor restriction
leaves the variable `base` as it is, or unbound. -/
def weighTypes : Nat → Option Str → Weights → List TypeDecl → Except Exn Weights
  | _, _, weights, [] => .ok weights
  | n, base, weights, t :: l =>
    match boundBase base t.content with
    | none => .error .nameError
    | some b => weighTypes (n + 1) (some b) ((t.name, n, b) :: weights) l

/-- `weights[name]` -/
def weightOf (weights : Weights) (name : Str) : Except Exn (Nat × Str) :=
  match weights.find? (fun w => w.1 = name) with
  | some w => .ok w.2
  | none => .error .keyError

/-- `_cmp` (soapfish/xsd2py.py:98-117); the first argument bounds the depth of the recursion, as Python does. -/
def cmpTypes (weights : Weights) : Nat → Str → Str → Except Exn Int
  | 0, _, _ => .error .recursionError
  | n + 1, a, b =>
    (weightOf weights a).bind fun wa =>
      (weightOf weights b).bind fun wb =>
        if wa.2 = [] ∧ wb.2 = [] then .ok ((wa.1 : Int) - (wb.1 : Int))
        else if b = wa.2 ∨ ':' ∈ wa.2 then .ok 1
        else if a = wb.2 ∨ ':' ∈ wb.2 then .ok (-1)
        else cmpTypes weights n (if wa.2 = [] then a else wa.2) (if wb.2 = [] then b else wb.2)

/-- Insertion of an element before the first one it is less than. -/
def listInsert {α : Type} (lt : α → α → Except Exn Bool) (x : α) : List α → Except Exn (List α)
  | [] => .ok [x]
  | y :: l => (lt x y).bind fun c => if c then .ok (x :: y :: l) else (listInsert lt x l).map (y :: ·)

/-- `list.sort`, which is stable and calls nothing but `<`. For orders that are consistent the algorithm does not matter
(C77 shows that they are); for others this is only one of the possible results. -/
def listSort {α : Type} (lt : α → α → Except Exn Bool) : List α → List α → Except Exn (List α)
  | acc, [] => .ok acc
  | acc, x :: l => (listInsert lt x acc).bind fun acc' => listSort lt acc' l

/-- `_reorder_complexTypes` (soapfish/xsd2py.py:81-119) -/
def reorderTypes (n : Nat) (l : List TypeDecl) : Except Exn (List TypeDecl) :=
  (weighTypes 0 none [] l).bind fun weights =>
    listSort (fun a b => (cmpTypes weights n a.name b.name).map fun c => decide (c < 0)) [] l

end Soapfish
