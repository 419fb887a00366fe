/-
Python primitives used by soapfish: text, exceptions, decimal text of integers, `int(str)`.

Text is `List Char` so that the kernel can compute with it.
-/
namespace Soapfish

/-- Python `str`. -/
abbrev Str := List Char

/-- `py"abc"` is the text `['a','b','c']`. -/
macro:max "py" s:str : term => do
  let lits : Array (Lean.TSyntax `term) :=
    (s.getString.toList.map (fun c => (⟨(Lean.Syntax.mkCharLit c).raw⟩ : Lean.TSyntax `term))).toArray
  `(([$lits,*] : Str))

/-- Python exceptions as values.  Exception texts are not modelled, except those of `SOAPError`
(soapfish/core.py:6-14), which travel over the wire. `user n` is an arbitrary exception class of user code. -/
inductive Exn where
  | valueError | typeError | attributeError | keyError | indexError | stopIteration
  | notImplemented | recursionError | assertionError | overflowError
  | xmlSyntaxError | documentInvalid | nameError | undefinedError
  | soapError (code message : Str) (actor : Option Str)
  | user (n : Nat)
  deriving DecidableEq, Repr

deriving instance DecidableEq for Except

/-! ### Characters -/

/-- `str.isspace` / `re` `\s` for one character (CPython: Unicode white space). -/
def isSpace (c : Char) : Bool :=
  let n := c.toNat
  (0x9 ≤ n && n ≤ 0xd) || (0x1c ≤ n && n ≤ 0x20) || n == 0x85 || n == 0xa0 || n == 0x1680 ||
  (0x2000 ≤ n && n ≤ 0x200a) || n == 0x2028 || n == 0x2029 || n == 0x202f || n == 0x205f || n == 0x3000

/-- Code points of the digit zero of every Unicode decimal digit block (category Nd). -/
def digitZeros : List Nat :=
  [0x30,0x660,0x6f0,0x7c0,0x966,0x9e6,0xa66,0xae6,0xb66,0xbe6,0xc66,0xce6,0xd66,0xde6,0xe50,0xed0,0xf20,
   0x1040,0x1090,0x17e0,0x1810,0x1946,0x19d0,0x1a80,0x1a90,0x1b50,0x1bb0,0x1c40,0x1c50,0xa620,0xa8d0,0xa900,
   0xa9d0,0xa9f0,0xaa50,0xabf0,0xff10,0x104a0,0x10d30,0x11066,0x110f0,0x11136,0x111d0,0x112f0,0x11450,
   0x114d0,0x11650,0x116c0,0x11730,0x118e0,0x11950,0x11c50,0x11d50,0x11da0,0x16a60,0x16ac0,0x16b50,0x1d7ce,
   0x1d7d8,0x1d7e2,0x1d7ec,0x1d7f6,0x1e140,0x1e2f0,0x1e950,0x1fbf0]

/-- Value of a Unicode decimal digit (what `int()` and `re` `\d` accept). -/
def uniDigit? (c : Char) : Option Nat :=
  (digitZeros.find? (fun z => z ≤ c.toNat && c.toNat < z + 10)).map (fun z => c.toNat - z)

/-- Value of an ASCII digit (`[0-9]`). -/
def asciiDigit? (c : Char) : Option Nat :=
  if 0x30 ≤ c.toNat ∧ c.toNat ≤ 0x39 then some (c.toNat - 0x30) else none

/-- ASCII digit for a number below ten. -/
def digitChar (n : Nat) : Char := Char.ofNat (0x30 + n)

/-! ### Decimal text of integers -/

/-- Decimal digits of `n`; the first argument bounds the number of digits. -/
def natStrAux : Nat → Nat → Str
  | 0, _ => []
  | f + 1, n => if n < 10 then [digitChar n] else natStrAux f (n / 10) ++ [digitChar (n % 10)]

/-- `str(n)` for a non-negative int.  CPython's 4300-digit conversion limit is not modelled. -/
def natStr (n : Nat) : Str := natStrAux (n + 1) n

/-- `str(i)` for an int. -/
def intStr : Int → Str
  | .ofNat n => natStr n
  | .negSucc n => '-' :: natStr (n + 1)

/-- `'%02d' % n` / `f'{n:02d}'` for non-negative `n`. -/
def pad2 (n : Nat) : Str := if n < 10 then '0' :: natStr n else natStr n

/-! ### `int(text)` -/

def lstrip (s : Str) : Str := s.dropWhile isSpace
/-- `str.strip()` -/
def strip (s : Str) : Str := ((lstrip s).reverse.dropWhile isSpace).reverse

/-- Digits with single underscores between them, after at least one digit has been read
(`acc` is the value so far). -/
def readDigits (acc : Nat) : Str → Option Nat
  | [] => some acc
  | '_' :: c :: cs =>
    match uniDigit? c with
    | some d => readDigits (acc * 10 + d) cs
    | none => none
  | c :: cs =>
    match uniDigit? c with
    | some d => readDigits (acc * 10 + d) cs
    | none => none

/-- Unsigned part of an int literal: at least one digit. -/
def readNat : Str → Option Nat
  | [] => none
  | c :: cs =>
    match uniDigit? c with
    | some d => readDigits d cs
    | none => none

/-- `int(s)` for a str: surrounding white space, optional sign, digits with single underscores.
CPython's 4300-digit limit is not modelled. -/
def pyInt (s : Str) : Except Exn Int :=
  match strip s with
  | '-' :: cs => match readNat cs with | some n => .ok (-(n : Int)) | none => .error .valueError
  | '+' :: cs => match readNat cs with | some n => .ok (n : Int) | none => .error .valueError
  | cs => match readNat cs with | some n => .ok (n : Int) | none => .error .valueError

/-! ### String helpers -/

/-- `s.startswith(p)` -/
def startsWith (p s : Str) : Bool := p.isPrefixOf s

/-- `c in s` for one character. -/
def hasChar (c : Char) (s : Str) : Bool := s.contains c

/-- `sub in s` -/
def hasSub (sub : Str) : Str → Bool
  | [] => sub.isEmpty
  | c :: cs => sub.isPrefixOf (c :: cs) || hasSub sub cs

/-- `s.split(c)` for a one-character separator. -/
def splitOn (sep : Char) : Str → List Str
  | [] => [[]]
  | c :: cs =>
    if c = sep then [] :: splitOn sep cs
    else match splitOn sep cs with
      | w :: ws => (c :: w) :: ws
      | [] => [[c]]

/-- `s.replace(c, '')` for one character. -/
def removeChar (c : Char) (s : Str) : Str := s.filter (· != c)

/-- `s.split(':')[-1]` -/
def lastPart (sep : Char) (s : Str) : Str := (splitOn sep s).getLastD []

/-- ASCII lower/upper case; characters outside ASCII are left alone (simplification). -/
def lowerC (c : Char) : Char := if 0x41 ≤ c.toNat ∧ c.toNat ≤ 0x5a then Char.ofNat (c.toNat + 32) else c
def upperC (c : Char) : Char := if 0x61 ≤ c.toNat ∧ c.toNat ≤ 0x7a then Char.ofNat (c.toNat - 32) else c
def lower (s : Str) : Str := s.map lowerC
def upper (s : Str) : Str := s.map upperC

/-- Python `bytes`. -/
abbrev Bytes := List Nat

/-- Python dict with insertion order. -/
abbrev Dict (α : Type) := List (Str × α)

def Dict.get? {α} (d : Dict α) (k : Str) : Option α :=
  match d with
  | [] => none
  | (k', v) :: r => if k' = k then some v else Dict.get? r k

def Dict.set {α} (d : Dict α) (k : Str) (v : α) : Dict α :=
  match d with
  | [] => [(k, v)]
  | (k', v') :: r => if k' = k then (k', v) :: r else (k', v') :: Dict.set r k v

def Dict.keys {α} (d : Dict α) : List Str := d.map (·.1)

end Soapfish
