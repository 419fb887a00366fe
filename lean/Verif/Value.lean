import Verif.Py
/-
The universe of Python values that soapfish fields can be given.
-/
namespace Soapfish

/-! ### Numbers -/

/-- A decimal number `± coeff * 10^exp`. -/
structure Dec where
  neg : Bool
  coeff : Nat
  exp : Int
  deriving DecidableEq, Repr

/-- Python `float`.  A finite float is identified with the decimal number printed by `repr` (its shortest
text), which is exact for up to 15 significant digits; binary rounding beyond that is not modelled. -/
inductive Flt where
  | fin (d : Dec)
  | inf (neg : Bool)
  | nan
  deriving DecidableEq, Repr

/-- Remove trailing zeros of the coefficient (first argument: bound on their number). -/
def Dec.normAux : Nat → Nat → Int → Nat × Int
  | 0, c, e => (c, e)
  | f + 1, c, e => if c % 10 = 0 then normAux f (c / 10) (e + 1) else (c, e)

/-- Canonical form: no trailing zeros in the coefficient, zero has exponent 0. -/
def Dec.norm (d : Dec) : Dec :=
  if d.coeff = 0 then { d with exp := 0 }
  else let (c, e) := Dec.normAux d.coeff d.coeff d.exp
    { d with coeff := c, exp := e }

/-- Is the decimal in canonical form? Every finite float of the model is. -/
def Dec.Canonical (d : Dec) : Prop := if d.coeff = 0 then d.exp = 0 else d.coeff % 10 ≠ 0

instance (d : Dec) : Decidable d.Canonical := by unfold Dec.Canonical; infer_instance

/-- `coeff * 10^(exp - e)` with sign, for `e ≤ exp`. -/
def Dec.scaled (d : Dec) (e : Int) : Int :=
  let m : Int := (d.coeff * 10 ^ (d.exp - e).toNat : Nat)
  if d.neg then -m else m

/-- Numeric comparison of finite decimals at a common exponent. -/
def Dec.lt (a b : Dec) : Bool := a.scaled (min a.exp b.exp) < b.scaled (min a.exp b.exp)
def Dec.eqv (a b : Dec) : Bool := a.scaled (min a.exp b.exp) = b.scaled (min a.exp b.exp)

/-- `n` zeros. -/
def zeros (n : Nat) : Str := List.replicate n '0'

/-- `repr(float)` (CPython `float_repr_style` short): fixed notation for -4 < decpt <= 16. -/
def Dec.repr (d : Dec) : Str :=
  let sign : Str := if d.neg then ['-'] else []
  if d.coeff = 0 then sign ++ py"0.0"
  else
    let ds := natStr d.coeff
    let n : Int := ds.length
    let decpt : Int := n + d.exp
    if -4 < decpt ∧ decpt ≤ 16 then
      if decpt ≤ 0 then sign ++ py"0." ++ zeros (-decpt).toNat ++ ds
      else if n ≤ decpt then sign ++ ds ++ zeros (decpt - n).toNat ++ py".0"
      else sign ++ ds.take decpt.toNat ++ ['.'] ++ ds.drop decpt.toNat
    else
      let e := decpt - 1
      let esign : Str := if e < 0 then ['-'] else ['+']
      let mant := match ds with
        | c :: [] => [c]
        | c :: cs => c :: '.' :: cs
        | [] => []
      sign ++ mant ++ ['e'] ++ esign ++ pad2 e.natAbs

def Flt.repr : Flt → Str
  | .fin d => d.repr
  | .inf true => py"-inf"
  | .inf false => py"inf"
  | .nan => py"nan"

/-- `str(decimal.Decimal)` (General Decimal Arithmetic to-scientific-string). -/
def Dec.decStr (d : Dec) : Str :=
  let sign : Str := if d.neg then ['-'] else []
  let ds := natStr d.coeff
  let n : Int := ds.length
  let adj : Int := n + d.exp   -- position of the decimal point
  if d.exp = 0 then sign ++ ds
  else if d.exp ≤ 0 ∧ -6 < adj then
    if adj ≤ 0 then sign ++ py"0." ++ zeros (-adj).toNat ++ ds
    else sign ++ ds.take adj.toNat ++ ['.'] ++ ds.drop adj.toNat
  else
    let e := adj - 1
    let esign : Str := if e < 0 then ['-'] else ['+']
    let mant := match ds with
      | c :: [] => [c]
      | c :: cs => c :: '.' :: cs
      | [] => []
    sign ++ mant ++ ['E'] ++ esign ++ natStr e.natAbs

/-- Remove underscores, each of which must stand between two digits (CPython
`_Py_string_to_number_with_underscores`). `prev`: the previous character was a digit. -/
def dropUnderscores (prev : Bool) : Str → Option Str
  | [] => some []
  | c :: cs =>
    if c = '_' then
      if prev && (match cs with | c' :: _ => (uniDigit? c').isSome | [] => false) then dropUnderscores false cs
      else none
    else (dropUnderscores (uniDigit? c).isSome cs).map (c :: ·)

/-- Longest run of digits, and the rest. -/
def takeDigits : Str → List Nat × Str
  | [] => ([], [])
  | c :: cs =>
    match uniDigit? c with
    | none => ([], c :: cs)
    | some d => (d :: (takeDigits cs).1, (takeDigits cs).2)

/-- Value of a list of digits. -/
def digitsNat (ds : List Nat) : Nat := ds.foldl (fun a d => a * 10 + d) 0

/-- An optional sign; `true` is minus. -/
def splitSign : Str → Bool × Str
  | '-' :: r => (true, r)
  | '+' :: r => (false, r)
  | r => (false, r)

/-- Exponent part of a float literal. -/
def floatExp : Str → Option Int
  | [] => some 0
  | c :: cs =>
    if c = 'e' ∨ c = 'E' then
      let (neg, r) := splitSign cs
      match takeDigits r with
      | ([], _) => none
      | (ds, []) => some (if neg then -(digitsNat ds : Int) else digitsNat ds)
      | (_, _ :: _) => none
    else none

/-- Unsigned float literal `digits [. digits] [e[+-]digits]`. -/
def floatBody (neg : Bool) (s : Str) : Option Dec :=
  let (i, r) := takeDigits s
  match r with
  | '.' :: r' =>
    let (f, r'') := takeDigits r'
    if i.isEmpty && f.isEmpty then none
    else match floatExp r'' with
      | some e => some (Dec.norm { neg := neg, coeff := digitsNat (i ++ f), exp := e - f.length })
      | none => none
  | r =>
    if i.isEmpty then none
    else match floatExp r with
      | some e => some (Dec.norm { neg := neg, coeff := digitsNat i, exp := e })
      | none => none

/-- `float(s)` for a str.  Rounding of more than 15 significant digits and overflow to infinity are not modelled. -/
def pyFloat (s : Str) : Except Exn Flt :=
  let s := strip s
  let (neg, r) := splitSign s
  let l := lower r
  if l = py"inf" ∨ l = py"infinity" then .ok (.inf neg)
  else if l = py"nan" then .ok .nan
  else match (dropUnderscores false r).bind (floatBody neg) with
    | some d => .ok (.fin d)
    | none => .error .valueError

/-! ### Dates and times -/

/-- A fixed UTC offset in microseconds (`datetime.timezone`).  Other tzinfo classes are not modelled. -/
structure Tz where
  us : Int
  deriving DecidableEq, Repr

structure DateV where
  year : Nat
  month : Nat
  day : Nat
  deriving DecidableEq, Repr

def isLeap (y : Nat) : Bool := (y % 4 == 0 && y % 100 != 0) || y % 400 == 0

def daysInMonth (y m : Nat) : Nat :=
  if m = 2 then (if isLeap y then 29 else 28)
  else if m = 4 ∨ m = 6 ∨ m = 9 ∨ m = 11 then 30 else 31

/-- `datetime.date(y, m, d)` does not raise. -/
def DateV.valid (d : DateV) : Bool :=
  1 ≤ d.year && d.year ≤ 9999 && 1 ≤ d.month && d.month ≤ 12 && 1 ≤ d.day && d.day ≤ daysInMonth d.year d.month

structure TimeV where
  hour : Nat
  minute : Nat
  second : Nat
  micro : Nat
  deriving DecidableEq, Repr

def TimeV.valid (t : TimeV) : Bool := t.hour < 24 && t.minute < 60 && t.second < 60 && t.micro < 1000000

/-! ### Values -/

/-- Python values other than lists and model instances. `decimal` is `decimal.Decimal` (finite), `unbounded` is
`decimal.Decimal('infinity')` (soapfish/xsd.py:50), `other` any object without relevant interface. -/
inductive Atom where
  | none
  | bool (b : Bool)
  | int (i : Int)
  | float (f : Flt)
  | decimal (d : Dec)
  | unbounded
  | str (s : Str)
  | xsdDate (d : DateV) (tz : Option Tz)
  | date (d : DateV)
  | datetime (d : DateV) (t : TimeV) (tz : Option Tz)
  | time (t : TimeV) (tz : Option Tz)
  | other (n : Nat)
  deriving DecidableEq, Repr

/-- Numeric view of a value; `bool` is an `int` in Python. -/
def Atom.num? : Atom → Option Flt
  | .bool b => some (.fin ⟨false, if b then 1 else 0, 0⟩)
  | .int i => some (.fin ⟨decide (i < 0), i.natAbs, 0⟩)
  | .float f => some f
  | .decimal d => some (.fin d)
  | .unbounded => some (.inf false)
  | _ => Option.none

/-- `a < b` on numbers; false when a NaN is involved. -/
def Flt.lt : Flt → Flt → Bool
  | .nan, _ => false
  | _, .nan => false
  | .inf true, .inf true => false
  | .inf true, _ => true
  | _, .inf true => false
  | .inf false, _ => false
  | _, .inf false => true
  | .fin a, .fin b => a.lt b

def Flt.eqv : Flt → Flt → Bool
  | .inf a, .inf b => a == b
  | .fin a, .fin b => a.eqv b
  | _, _ => false

/-- `a <= b` on numbers. -/
def Flt.le (a b : Flt) : Bool := a.lt b || a.eqv b

/-- `a == b` -/
def Atom.eqv (a b : Atom) : Bool :=
  match a.num?, b.num? with
  | some x, some y => x.eqv y
  | _, _ => a == b

/-- `a < b`, `a <= b` between a value and a facet; non-numbers raise TypeError, except str with str. -/
def Atom.ltE (a b : Atom) : Except Exn Bool :=
  match a.num?, b.num? with
  | some x, some y => .ok (x.lt y)
  | _, _ => match a, b with
    | .str s, .str t => .ok (decide (s.map Char.toNat < t.map Char.toNat))
    | _, _ => .error .typeError

def Atom.leE (a b : Atom) : Except Exn Bool :=
  match a.num?, b.num? with
  | some x, some y => .ok (x.le y)
  | _, _ => match a, b with
    | .str s, .str t => .ok (decide (s.map Char.toNat ≤ t.map Char.toNat))
    | _, _ => .error .typeError

/-- `str(v)`; dates and opaque objects are not needed (they never reach it) and print as `?`. -/
def Atom.toStr : Atom → Str
  | .none => py"None"
  | .bool true => py"True"
  | .bool false => py"False"
  | .int i => intStr i
  | .float f => f.repr
  | .decimal d => d.decStr
  | .unbounded => py"Infinity"
  | .str s => s
  | _ => py"?"

end Soapfish
