import Verif.Value
import Verif.Regex
/-
Simple types: `accept`, `xmlvalue`, `pythonvalue` (soapfish/xsd.py:107-525).
-/
namespace Soapfish

/-! ### String (soapfish/xsd.py:121-194) -/

/-- Values of the `whiteSpace` facet; `other` is unset or any unknown text. -/
inductive WS where
  | preserve | replace | collapse | other
  deriving DecidableEq, Repr

/-- Facets of a String (soapfish/xsd.py:123-143).  An empty enumeration or pattern is falsy in Python and the same as
none. -/
structure StrFacets where
  enumeration : List Str := []
  pattern : Option Pattern := none
  length : Option Int := none
  minLength : Option Int := none
  maxLength : Option Int := none
  ws : WS := .other

/-- soapfish/xsd.py:130-143: constructor arguments override class-level facets when given. Enumeration `none` is
"not given". -/
structure StrArgs where
  enumeration : Option (List Str) := none
  pattern : Option Pattern := none
  length : Option Int := none
  minLength : Option Int := none
  maxLength : Option Int := none
  ws : Option WS := none

def StrFacets.init (cls : StrFacets) (a : StrArgs) : StrFacets where
  enumeration := a.enumeration.getD cls.enumeration
  pattern := match a.pattern with | some p => some p | none => cls.pattern
  length := match a.length with | some p => some p | none => cls.length
  minLength := match a.minLength with | some p => some p | none => cls.minLength
  maxLength := match a.maxLength with | some p => some p | none => cls.maxLength
  ws := a.ws.getD cls.ws

/-- `re.sub(r'[\t\r\n\s]', ' ', value)` (soapfish/xsd.py:189) -/
def wsReplace (s : Str) : Str := s.map (fun c => if isSpace c then ' ' else c)

/-- `re.sub(r'[\t\r\n\s]+', ' ', value)` (soapfish/xsd.py:192); `inRun`: the previous character was white space. -/
def wsCollapse (inRun : Bool) : Str → Str
  | [] => []
  | c :: cs =>
    if isSpace c then (if inRun then wsCollapse true cs else ' ' :: wsCollapse true cs)
    else c :: wsCollapse false cs

/-- soapfish/xsd.py:183-194 -/
def cleanWhitespace (ws : WS) (s : Str) : Str :=
  match ws with
  | .replace => wsReplace s
  | .collapse => wsCollapse false s
  | .preserve | .other => s

/-- A facet that is `None` or `0` is not checked (soapfish/xsd.py:163, 167, 171). -/
def truthy? (n : Option Int) : Option Int := match n with
  | some k => if k = 0 then none else some k
  | none => none

def raiseIf (b : Bool) (e : Exn) : Except Exn Unit := if b then .error e else .ok ()

/-- A check made only when the facet is given (`if self.x is not None` / `if self.x`). -/
def ifGiven {α} (o : Option α) (check : α → Except Exn Unit) : Except Exn Unit :=
  match o with
  | some a => check a
  | none => .ok ()

/-- soapfish/xsd.py:145-175 -/
def stringAccept (f : StrFacets) (v : Atom) : Except Exn Atom :=
  match v with
  | .none => .ok .none
  | .str s => do
    let s := cleanWhitespace f.ws s
    ifGiven f.pattern (fun p => raiseIf (!p.matches s) .valueError)
    raiseIf (!f.enumeration.isEmpty && !f.enumeration.contains s) .valueError
    ifGiven (truthy? f.length) (fun n => raiseIf ((s.length : Int) != n) .valueError)
    ifGiven (truthy? f.minLength) (fun n => raiseIf ((s.length : Int) < n) .valueError)
    ifGiven (truthy? f.maxLength) (fun n => raiseIf ((s.length : Int) > n) .valueError)
    .ok (.str s)
  | _ => .error .valueError

/-! ### Boolean (soapfish/xsd.py:197-222) -/

/-- soapfish/xsd.py:198-202: `value in [True, False, None]` uses `==`, so 0, 1, 0.0, 1.0, Decimal(1) pass. -/
def boolAccept (v : Atom) : Except Exn Atom :=
  if v.eqv (.bool true) || v.eqv (.bool false) || v == .none then .ok v else .error .valueError

/-- soapfish/xsd.py:204-212 -/
def boolXml (v : Atom) : Except Exn (Option Str) :=
  match v with
  | .bool false => .ok (some py"false")
  | .bool true => .ok (some py"true")
  | .none => .ok (some py"nil")
  | _ => .error .valueError

/-- soapfish/xsd.py:214-222 -/
def boolPy (v : Atom) : Except Exn Atom :=
  if v = .str py"false" then .ok (.bool false)
  else if v = .str py"true" then .ok (.bool true)
  else if v = .str py"nil" ∨ v = .none then .ok .none
  else .error .valueError

/-! ### Time-zone offsets (soapfish/utils.py:194-213) -/

/-- `timezone_offset_to_string`; `offset.days * 86400 + offset.seconds` is the offset in seconds rounded down. -/
def offsetStr (us : Int) : Str :=
  let sign : Char := if 0 ≤ us then '+' else '-'
  let secs := (us / 1000000).natAbs
  let hours := secs / 3600
  let minutes := (secs % 3600) / 60
  sign :: (pad2 hours ++ ':' :: pad2 minutes)

/-! ### Date (soapfish/xsd.py:225-280, soapfish/xsd_types.py) -/

/-- `datetime.timezone(offset)` requires a strictly smaller offset than 24 hours. -/
def tzOk (us : Int) : Bool := -86400000000 < us && us < 86400000000

/-- `XSDDate(year, month, day, tzinfo)` (soapfish/xsd_types.py:23-29): raises ValueError when `datetime.date` does
(OverflowError for years that do not fit a C int). -/
def mkXSDDate (y m d : Nat) (tz : Option Tz) : Except Exn Atom :=
  if y > 2147483647 then .error .overflowError
  else if (DateV.mk y m d).valid then .ok (.xsdDate ⟨y, m, d⟩ tz) else .error .valueError

/-- soapfish/xsd.py:236-246 -/
def dateAccept (v : Atom) : Except Exn Atom :=
  match v with
  | .none => .ok .none
  | .xsdDate d tz => .ok (.xsdDate d tz)
  | .date d => mkXSDDate d.year d.month d.day none
  | _ => .error .valueError

/-- `strftime('%Y-%m-%d')`: with glibc the year is not zero-padded. -/
def dateStr (d : DateV) : Str := natStr d.year ++ '-' :: (pad2 d.month ++ '-' :: pad2 d.day)

def tzSuffix : Option Tz → Str
  | none => []
  | some tz => offsetStr tz.us

/-- soapfish/xsd.py:248-253; `XSDDate.strftime` re-validates the date (soapfish/xsd_types.py:35-50). -/
def dateXml (v : Atom) : Except Exn (Option Str) :=
  match v with
  | .xsdDate d tz => if d.valid then .ok (some (dateStr d ++ tzSuffix tz)) else .error .valueError
  | .date d => .ok (some (dateStr d))
  | .datetime d _ tz => .ok (some (dateStr d ++ tzSuffix tz))
  | _ => .error .attributeError

/-- The time-zone part of the date regular expression (soapfish/xsd.py:234). -/
inductive TzText where
  | absent
  | zulu
  | offset (neg : Bool) (h : Nat) (m : Option Nat)
  deriving DecidableEq, Repr

def twoDigits? (digit? : Char → Option Nat) (a b : Char) : Option Nat :=
  match digit? a, digit? b with
  | some x, some y => some (x * 10 + y)
  | _, _ => none

/-- `(?P<tz_hour>[0-9]{2}):?(?P<tz_minute>[0-9]{2})?` after the sign. -/
def parseTzBody (neg : Bool) : Str → Option TzText
  | h1 :: h2 :: r =>
    match twoDigits? asciiDigit? h1 h2 with
    | none => none
    | some h =>
      match r with
      | [] => some (.offset neg h none)
      | [c] => if c = ':' then some (.offset neg h none) else none
      | [m1, m2] => (twoDigits? asciiDigit? m1 m2).map (fun m => .offset neg h (some m))
      | [c, m1, m2] =>
        if c = ':' then (twoDigits? asciiDigit? m1 m2).map (fun m => .offset neg h (some m)) else none
      | _ => none
  | _ => none

/-- `(?P<timezone>Z|...)?` matched against the whole remaining text. -/
def parseTz : Str → Option TzText
  | [] => some .absent
  | c :: r =>
    if c = 'Z' then (if r = [] then some .zulu else none)
    else if c = '+' then parseTzBody false r
    else if c = '-' then parseTzBody true r
    else none

/-- The same followed by `$`, which also matches before a final newline. -/
def parseTzEnd (r : Str) : Option TzText :=
  match parseTz r with
  | some t => some t
  | none => if r.getLast? = some '\n' then parseTz r.dropLast else none

/-- `^(\-)?`: an optional leading minus. -/
def dropMinus : Str → Str
  | '-' :: r => r
  | r => r

/-- The whole regular expression `^(\-)?(\d{4,})-(\d{2})-(\d{2})(tz)?$` (soapfish/xsd.py:231-234). -/
def matchDate (s : Str) : Option (Nat × Nat × Nat × TzText) :=
  let s := dropMinus s
  let ys := (takeDigits s).1
  if ys.length < 4 then none
  else match (takeDigits s).2 with
    | '-' :: m1 :: m2 :: '-' :: d1 :: d2 :: rest =>
      match twoDigits? uniDigit? m1 m2, twoDigits? uniDigit? d1 d2, parseTzEnd rest with
      | some m, some d, some tz => some (digitsNat ys, m, d, tz)
      | _, _, _ => none
    | _ => none

/-- soapfish/xsd.py:270-280 -/
def tzOf : TzText → Except Exn (Option Tz)
  | .absent => .ok none
  | .zulu => .ok (some ⟨0⟩)
  | .offset _ _ none => .error .typeError          -- int(None)
  | .offset neg h (some m) =>
    let us : Int := ((h * 60 + m) * 60000000 : Nat)
    let us := if neg then -us else us
    if tzOk us then .ok (some ⟨us⟩) else .error .valueError

/-- soapfish/xsd.py:255-268 -/
def datePy (v : Atom) : Except Exn Atom :=
  match v with
  | .none => .ok .none
  | .str s =>
    if s = py"nil" then .ok .none
    else match matchDate s with
      | none => .error .valueError
      | some (y, m, d, tz) => do
        let tz ← tzOf tz
        mkXSDDate y m d tz
  | _ => .error .valueError

/-! ### DateTime and Time (soapfish/xsd.py:283-340) -/

/-- `iso8601.parse_date`, a parameter of the model. -/
abbrev Iso := Str → Except Exn (DateV × TimeV × Option Tz)

/-- soapfish/xsd.py:286-293 -/
def datetimeAccept (iso : Iso) (v : Atom) : Except Exn Atom :=
  match v with
  | .none => .ok .none
  | .datetime d t tz => .ok (.datetime d t tz)
  | .str s => (iso s).map (fun (d, t, tz) => .datetime d t tz)
  | _ => .error .valueError

/-- `strftime('%H:%M:%S')` -/
def timeStr (t : TimeV) : Str := pad2 t.hour ++ ':' :: (pad2 t.minute ++ ':' :: pad2 t.second)

/-- soapfish/xsd.py:295-302 -/
def datetimeXml (v : Atom) : Except Exn (Option Str) :=
  match v with
  | .none => .ok (some py"nil")
  | .datetime d t tz => .ok (some (dateStr d ++ 'T' :: (timeStr t ++ tzSuffix tz)))
  | _ => .error .attributeError

/-- soapfish/xsd.py:304-305; `iso8601.parse_date` raises its ParseError (a ValueError) for non-text. -/
def datetimePy (iso : Iso) (v : Atom) : Except Exn Atom :=
  match v with
  | .none => .ok .none
  | .str s => if s = py"nil" then .ok .none else (iso s).map (fun (d, t, tz) => .datetime d t tz)
  | _ => .error .valueError

/-- soapfish/xsd.py:332-340: any exception becomes ValueError. -/
def timeParse (iso : Iso) (s : Str) : Except Exn Atom :=
  match iso (py"1900-01-01T" ++ s) with
  | .ok (_, t, tz) => .ok (.time t tz)
  | .error _ => .error .valueError

/-- soapfish/xsd.py:311-318 -/
def timeAccept (iso : Iso) (v : Atom) : Except Exn Atom :=
  match v with
  | .none => .ok .none
  | .time t tz => .ok (.time t tz)
  | .str s => timeParse iso s
  | _ => .error .valueError

/-- soapfish/xsd.py:320-327 -/
def timeXml (v : Atom) : Except Exn (Option Str) :=
  match v with
  | .none => .ok (some py"nil")
  | .time t tz => .ok (some (timeStr t ++ tzSuffix tz))
  | _ => .error .attributeError

/-- soapfish/xsd.py:329-330 -/
def timePy (iso : Iso) (v : Atom) : Except Exn Atom :=
  match v with
  | .none => .ok .none
  | .str s => if s = py"nil" then .ok .none else timeParse iso s
  | _ => .error .valueError

/-! ### Decimal and its integer descendants (soapfish/xsd.py:343-509) -/

/-- Facets of a numeric type (soapfish/xsd.py:345-355). -/
structure NumFacets where
  enumeration : Option (List Atom) := none
  fractionDigits : Option Int := none
  maxExclusive : Option Atom := none
  maxInclusive : Option Atom := none
  minExclusive : Option Atom := none
  minInclusive : Option Atom := none
  pattern : Option Pattern := none
  totalDigits : Option Int := none

/-- Raise ValueError when the comparison holds, pass on its TypeError (soapfish/xsd.py:373-380). -/
def checkBound (bad : Atom → Except Exn Bool) : Option Atom → Except Exn Unit
  | none => .ok ()
  | some b => do raiseIf (← bad b) .valueError

/-- soapfish/xsd.py:361-371: number of digits after the point of `str(value)`. -/
def checkFraction (n : Option Int) (s : Str) : Except Exn Unit :=
  match n with
  | none => .ok ()
  | some n =>
    if n = 0 then raiseIf (hasChar '.' s) .valueError
    else if !hasChar '.' s then .error .valueError
    else raiseIf ((((splitOn '.' s)[1]?.getD []).length : Int) != n) .valueError

/-- soapfish/xsd.py:357-395, in the same order. -/
def checkRestrictions (f : NumFacets) (v : Atom) : Except Exn Unit := do
  ifGiven f.enumeration (fun l => raiseIf (!l.any (fun x => v.eqv x)) .valueError)
  checkFraction f.fractionDigits v.toStr
  checkBound (fun b => b.leE v) f.maxExclusive
  checkBound (fun b => b.ltE v) f.maxInclusive
  checkBound (fun b => v.leE b) f.minExclusive
  checkBound (fun b => v.ltE b) f.minInclusive
  ifGiven f.pattern (fun p => raiseIf (!p.matches v.toStr) .valueError)
  ifGiven f.totalDigits (fun n =>
    raiseIf ((v.toStr.length : Int) - (if hasChar '.' v.toStr then 1 else 0) > n) .valueError)

/-- soapfish/xsd.py:397-410 -/
def decimalAccept (f : NumFacets) (v : Atom) : Except Exn Atom :=
  match v with
  | .none => .ok .none
  | .decimal d => do
    checkRestrictions f (.str d.decStr)
    .ok (.str d.decStr)
  | .unbounded => do
    checkRestrictions f (.str py"Infinity")
    .ok (.str py"Infinity")
  | .float _ | .int _ | .bool _ => do
    checkRestrictions f v
    .ok v
  | .str s => do
    let x ← pyFloat s
    checkRestrictions f (.float x)
    .ok (.float x)
  | _ => .error .valueError

/-- soapfish/xsd.py:450-461 -/
def integerAccept (f : NumFacets) (v : Atom) : Except Exn Atom :=
  match v with
  | .none => .ok .none
  | .int _ | .bool _ => do
    checkRestrictions f v
    .ok v
  | .str s => do
    let x ← pyInt s
    checkRestrictions f (.int x)
    .ok (.int x)
  | _ => .error .valueError

/-- The integer classes (soapfish/xsd.py:440-509). -/
inductive IntKind where
  | integer | nonNegativeInteger | nonPositiveInteger | negativeInteger | positiveInteger
  | long | int | short | byte | unsignedLong | unsignedInt | unsignedShort | unsignedByte
  deriving DecidableEq, Repr

/-- Parent class (soapfish/xsd.py:464-509). -/
def IntKind.parent : IntKind → Option IntKind
  | .integer => none
  | .nonNegativeInteger => some .integer
  | .nonPositiveInteger => some .integer
  | .negativeInteger => some .nonPositiveInteger
  | .positiveInteger => some .nonNegativeInteger
  | .long => some .integer
  | .int => some .long
  | .short => some .int
  | .byte => some .short
  | .unsignedLong => some .nonNegativeInteger
  | .unsignedInt => some .unsignedLong
  | .unsignedShort => some .unsignedInt
  | .unsignedByte => some .unsignedShort

/-- The class attribute `overrides` (soapfish/xsd.py:441, 465-509): `maxInclusive`, `minInclusive`; `Integer` itself
overrides `fractionDigits` and `pattern`. -/
structure Overrides where
  base : Bool := false            -- fractionDigits = 0, pattern = [-+]?[0-9]+
  maxInclusive : Option Int := none
  minInclusive : Option Int := none

def IntKind.overrides : IntKind → Overrides
  | .integer => { base := true }
  | .nonNegativeInteger => { minInclusive := some 0 }
  | .nonPositiveInteger => { maxInclusive := some 0 }
  | .negativeInteger => { maxInclusive := some (-1) }
  | .positiveInteger => { minInclusive := some 1 }
  | .long => { maxInclusive := some 9223372036854775807, minInclusive := some (-9223372036854775808) }
  | .int => { maxInclusive := some 2147483647, minInclusive := some (-2147483648) }
  | .short => { maxInclusive := some 32767, minInclusive := some (-32768) }
  | .byte => { maxInclusive := some 127, minInclusive := some (-128) }
  | .unsignedLong => { minInclusive := some 0, maxInclusive := some 18446744073709551615 }
  | .unsignedInt => { minInclusive := some 0, maxInclusive := some 4294967295 }
  | .unsignedShort => { minInclusive := some 0, maxInclusive := some 65535 }
  | .unsignedByte => { minInclusive := some 0, maxInclusive := some 255 }

/-- `facets.update(c.overrides)` (soapfish/xsd.py:447). -/
def NumFacets.update (f : NumFacets) (o : Overrides) : NumFacets :=
  let f := if o.base then { f with fractionDigits := some 0, pattern := some intPattern } else f
  let f := match o.maxInclusive with | some n => { f with maxInclusive := some (.int n) } | none => f
  match o.minInclusive with | some n => { f with minInclusive := some (.int n) } | none => f

/-- Classes from `Integer` down to the class itself (soapfish/xsd.py:446); the longest chain has five classes. -/
def IntKind.chain : Nat → IntKind → List IntKind
  | 0, k => [k]
  | n + 1, k => match k.parent with
    | some p => chain n p ++ [k]
    | none => [k]

/-- `Integer.__init__` (soapfish/xsd.py:443-448): the class overrides win over constructor arguments. -/
def IntKind.facets (k : IntKind) (args : NumFacets) : NumFacets :=
  (IntKind.chain 5 k).foldl (fun f c => f.update c.overrides) args

/-- soapfish/xsd.py:412-413 -/
def numXml (v : Atom) : Except Exn (Option Str) := .ok (some v.toStr)

/-! ### MaxOccurs (soapfish/xsd.py:512-525) -/

/-- `int(value)` for non-text values: truncation of numbers, TypeError for other objects. -/
def truncDec (d : Dec) : Int :=
  let n : Nat := if 0 ≤ d.exp then d.coeff * 10 ^ d.exp.toNat else d.coeff / 10 ^ (-d.exp).toNat
  if d.neg then -(n : Int) else n

def pyIntOf (v : Atom) : Except Exn Int :=
  match v with
  | .str s => pyInt s
  | .bool b => .ok (if b then 1 else 0)
  | .int i => .ok i
  | .float (.fin d) => .ok (truncDec d)
  | .float (.inf _) => .error .overflowError
  | .float .nan => .error .valueError
  | .decimal d => .ok (truncDec d)
  | .unbounded => .error .overflowError
  | _ => .error .typeError

/-- soapfish/xsd.py:513-519 -/
def maxOccursAccept (v : Atom) : Except Exn Atom :=
  match v with
  | .none => .ok .none
  | _ => if v = .str py"unbounded" ∨ v.eqv .unbounded then .ok .unbounded
         else (pyIntOf v).map .int

/-- soapfish/xsd.py:521-522 -/
def maxOccursXml (v : Atom) : Except Exn (Option Str) :=
  .ok (some (if v.eqv .unbounded then py"unbounded" else v.toStr))

/-! ### All simple types together -/

/-- Simple types with their facets.  `lang` is `soap12.LanguageString` (soapfish/soap12.py:39-43), a String that also
sets `xml:lang` when rendered. -/
inductive SType where
  | string (f : StrFacets)
  | lang
  | boolean
  | date
  | datetime (iso : Iso)
  | time (iso : Iso)
  | decimal (f : NumFacets)
  | integer (f : NumFacets)
  | maxOccurs

def SType.accept : SType → Atom → Except Exn Atom
  | .string f, v => stringAccept f v
  | .lang, v => stringAccept {} v
  | .boolean, v => boolAccept v
  | .date, v => dateAccept v
  | .datetime iso, v => datetimeAccept iso v
  | .time iso, v => timeAccept iso v
  | .decimal f, v => decimalAccept f v
  | .integer f, v => integerAccept f v
  | .maxOccurs, v => maxOccursAccept v

/-- soapfish/xsd.py:177-178 for strings: the value itself; text assigned to an lxml element must be text or None. -/
def stringXml (v : Atom) : Except Exn (Option Str) :=
  match v with
  | .none => .ok none
  | .str s => .ok (some s)
  | _ => .error .typeError

def SType.xmlvalue : SType → Atom → Except Exn (Option Str)
  | .string _, v => stringXml v
  | .lang, v => stringXml v
  | .boolean, v => boolXml v
  | .date, v => dateXml v
  | .datetime _, v => datetimeXml v
  | .time _, v => timeXml v
  | .decimal _, v => numXml v
  | .integer _, v => numXml v
  | .maxOccurs, v => maxOccursXml v

/-- soapfish/xsd.py:415-419: `'nil'` is None, anything else goes through `accept`. -/
def nilOr (accept : Atom → Except Exn Atom) (v : Atom) : Except Exn Atom :=
  if v = .str py"nil" then .ok .none else accept v

def SType.pythonvalue : SType → Atom → Except Exn Atom
  | .string _, v => .ok v
  | .lang, v => .ok v
  | .boolean, v => boolPy v
  | .date, v => datePy v
  | .datetime iso, v => datetimePy iso v
  | .time iso, v => timePy iso v
  | .decimal f, v => nilOr (decimalAccept f) v
  | .integer f, v => nilOr (integerAccept f) v
  | .maxOccurs, v => maxOccursAccept v

end Soapfish
