import Verif.Py
/-
Text handling around HTTP: query strings, header parameters, `$`-templates, environment lookups, SOAP actions.
-/
namespace Soapfish

/-! ### UTF-8 and percent encoding (CPython `bytes.decode('utf-8', 'replace')`, Lib/urllib/parse.py) -/

/-- Is the byte a continuation byte in the given range? -/
def contByte (lo hi : Nat) : List Nat → Bool
  | c :: _ => lo ≤ c && c ≤ hi
  | [] => false

/-- U+FFFD. -/
def replacement : Char := Char.ofNat 0xfffd

/-- Second byte range after a given first byte of a three or four byte sequence. -/
def secondLo (b : Nat) : Nat := if b = 0xe0 then 0xa0 else if b = 0xf0 then 0x90 else 0x80
def secondHi (b : Nat) : Nat := if b = 0xed then 0x9f else if b = 0xf4 then 0x8f else 0xbf

/-- `bytes.decode('utf-8', errors='replace')` -/
def utf8Replace : Bytes → Str
  | [] => []
  | b :: r =>
    if b < 0x80 then Char.ofNat b :: utf8Replace r
    else if 0xc2 ≤ b && b ≤ 0xdf && contByte 0x80 0xbf r then
      match r with
      | c1 :: r => Char.ofNat ((b - 0xc0) * 64 + (c1 - 0x80)) :: utf8Replace r
      | [] => [replacement]
    else if 0xe0 ≤ b && b ≤ 0xef && contByte (secondLo b) (secondHi b) r then
      match r with
      | c1 :: c2 :: r =>
        if contByte 0x80 0xbf [c2] then
          Char.ofNat ((b - 0xe0) * 4096 + (c1 - 0x80) * 64 + (c2 - 0x80)) :: utf8Replace r
        else replacement :: utf8Replace (c2 :: r)
      | _ => [replacement]
    else if 0xf0 ≤ b && b ≤ 0xf4 && contByte (secondLo b) (secondHi b) r then
      match r with
      | c1 :: c2 :: c3 :: r =>
        if contByte 0x80 0xbf [c2] then
          if contByte 0x80 0xbf [c3] then
            Char.ofNat ((b - 0xf0) * 262144 + (c1 - 0x80) * 4096 + (c2 - 0x80) * 64 + (c3 - 0x80)) :: utf8Replace r
          else replacement :: utf8Replace (c3 :: r)
        else replacement :: utf8Replace (c2 :: c3 :: r)
      | _ :: c2 :: r => if contByte 0x80 0xbf [c2] then [replacement] else replacement :: utf8Replace (c2 :: r)
      | _ => [replacement]
    else replacement :: utf8Replace r

/-- Value of a hexadecimal digit. -/
def hexDigit? (c : Char) : Option Nat :=
  let n := c.toNat
  if 0x30 ≤ n ∧ n ≤ 0x39 then some (n - 0x30)
  else if 0x41 ≤ n ∧ n ≤ 0x46 then some (n - 0x37)
  else if 0x61 ≤ n ∧ n ≤ 0x66 then some (n - 0x57)
  else none

/-- `unquote_to_bytes` of ASCII text. -/
def unquoteBytes : Str → Bytes
  | [] => []
  | c :: r =>
    if c = '%' then
      match r with
      | a :: b :: r' =>
        match hexDigit? a, hexDigit? b with
        | some x, some y => (16 * x + y) :: unquoteBytes r'
        | _, _ => 0x25 :: unquoteBytes (a :: b :: r')
      | [a] => [0x25, a.toNat]
      | [] => [0x25]
    else c.toNat :: unquoteBytes r

/-- `unquote` run by run: `acc` is the current run of ASCII characters, reversed. -/
def unquoteRuns (acc : Str) : Str → Str
  | [] => utf8Replace (unquoteBytes acc.reverse)
  | c :: r =>
    if c.toNat < 128 then unquoteRuns (c :: acc) r
    else utf8Replace (unquoteBytes acc.reverse) ++ c :: unquoteRuns [] r

/-- `urllib.parse.unquote` -/
def unquote (s : Str) : Str := if hasChar '%' s then unquoteRuns [] s else s

/-- `unquote_plus` -/
def unquotePlus (s : Str) : Str := unquote (s.map fun c => if c = '+' then ' ' else c)

/-- `s.partition('=')`: before and after the first `=`. -/
def partitionEq : Str → Str × Str
  | [] => ([], [])
  | c :: r => if c = '=' then ([], r) else let (a, b) := partitionEq r; (c :: a, b)

/-- `urllib.parse.parse_qsl(qs, keep_blank_values=True)` -/
def parseQsl (qs : Str) : List (Str × Str) :=
  ((splitOn '&' qs).filter (· ≠ [])).map fun item =>
    (unquotePlus (partitionEq item).1, unquotePlus (partitionEq item).2)

/-- `parsed_result[name].append(value)` -/
def Dict.push {α} (d : Dict (List α)) (k : Str) (v : α) : Dict (List α) :=
  match d.get? k with
  | some vs => d.set k (vs ++ [v])
  | none => d.set k [v]

/-- `urllib.parse.parse_qs(qs, keep_blank_values=True)` -/
def parseQs (qs : Str) : Dict (List Str) := (parseQsl qs).foldl (fun d p => d.push p.1 p.2) []

/-! ### `string.Template.safe_substitute` (CPython Lib/string.py) -/

/-- `[_a-zA-Z]` -/
def isIdStart (c : Char) : Bool :=
  c = '_' || (0x41 ≤ c.toNat && c.toNat ≤ 0x5a) || (0x61 ≤ c.toNat && c.toNat ≤ 0x7a)

/-- `[_a-zA-Z0-9]` -/
def isIdChar (c : Char) : Bool := isIdStart c || (0x30 ≤ c.toNat && c.toNat ≤ 0x39)

/-- The longest identifier at the beginning, empty if there is none. -/
def identPrefix : Str → Str
  | [] => []
  | c :: r => if isIdStart c then c :: r.takeWhile isIdChar else []

/-- What a placeholder becomes: its value, or itself. -/
def placeholder (m : Dict Str) (name : Str) (written : Str) : Str :=
  match m.get? name with
  | some v => v
  | none => written

/-- `Template(s).safe_substitute(m)`; the number bounds the length of the text. -/
def substAux (m : Dict Str) : Nat → Str → Str
  | 0, s => s
  | _ + 1, [] => []
  | n + 1, c :: r =>
    if c = '$' then
      match r with
      | [] => ['$']
      | d :: r' =>
        if d = '$' then '$' :: substAux m n r'
        else if identPrefix r ≠ [] then
          placeholder m (identPrefix r) ('$' :: identPrefix r) ++ substAux m n (r.drop (identPrefix r).length)
        else if d = '{' ∧ identPrefix r' ≠ [] ∧ (r'.drop (identPrefix r').length).head? = some '}' then
          placeholder m (identPrefix r') ('$' :: '{' :: (identPrefix r' ++ ['}'])) ++
            substAux m n (r'.drop ((identPrefix r').length + 1))
        else '$' :: substAux m n r
    else c :: substAux m n r

def safeSubstitute (m : Dict Str) (s : Str) : Str := substAux m s.length s

/-! ### `cgi.parse_header` (CPython Lib/cgi.py) -/

/-- Up to the first `;` that is not inside double quotes (a quote after a backslash does not count), and the rest: the
inner loop of `_parseparam`, as one scan. -/
def paramEnd (afterBackslash quoted : Bool) : Str → Str × Str
  | [] => ([], [])
  | c :: r =>
    if c = ';' ∧ quoted = false then ([], c :: r)
    else
      let quoted' := if c = '"' ∧ afterBackslash = false then !quoted else quoted
      let (f, rest) := paramEnd (c = '\\') quoted' r
      (c :: f, rest)

/-- `_parseparam`; the number bounds the length of the text. -/
def parseParams : Nat → Str → List Str
  | n + 1, c :: s => if c = ';' then strip (paramEnd false false s).1 :: parseParams n (paramEnd false false s).2 else []
  | _, _ => []

/-- `s.replace(ab, t)` for a text of two different characters. -/
def replace2 (a b : Char) (t : Str) : Str → Str
  | [] => []
  | x :: r =>
    match r with
    | y :: r' => if x = a ∧ y = b then t ++ replace2 a b t r' else x :: replace2 a b t (y :: r')
    | [] => [x]

/-- Remove surrounding double quotes and the escapes inside. -/
def unquoteParam (v : Str) : Str :=
  if 2 ≤ v.length ∧ v.head? = some '"' ∧ v.getLast? = some '"' then
    replace2 '\\' '"' ['"'] (replace2 '\\' '\\' ['\\'] v.tail.dropLast)
  else v

/-- One parameter into the dictionary. -/
def addParam (d : Dict Str) (p : Str) : Dict Str :=
  if hasChar '=' p then
    d.set (lower (strip (partitionEq p).1)) (unquoteParam (strip (partitionEq p).2))
  else d

/-- `cgi.parse_header` -/
def parseHeader (line : Str) : Str × Dict Str :=
  match parseParams (line.length + 1) (';' :: line) with
  | key :: ps => (key, ps.foldl addParam [])
  | [] => ([], [])

/-! ### Environments -/

/-- `environ.get`: what the lookup of a name gives (`none`: the default is used). -/
abbrev Env := Str → Option Str

/-- A plain dictionary as environment (WSGI and Flask: soapfish/soap_dispatch.py:256, soapfish/flask_.py:11). -/
def Dict.env (d : Dict Str) : Env := fun k => d.get? k

/-- `DjangoEnvironWrapper.get` (soapfish/django_.py:11-16) -/
def djangoEnv (d : Dict Str) : Env := fun name =>
  let name := upper (name.map fun c => if c = '-' then '_' else c)
  match d.get? name with
  | some v => some v
  | none => d.get? (py"HTTP_" ++ name)

/-- Truth of `environ.get(name)`. -/
def truthy : Option Str → Bool
  | some (_ :: _) => true
  | _ => false

/-! ### Names (soapfish/utils.py:40-45) -/

/-- `remove_namespace` -/
def removeNamespace : Option Str → Option Str
  | some (c :: cs) => some (lastPart ':' (c :: cs))
  | _ => none

/-- `uncapitalize`; the empty text is an IndexError. -/
def uncapitalize (s : Str) : Except Exn Str :=
  if s = py"QName" then .ok s
  else match s with
    | c :: cs => .ok (lowerC c :: cs)
    | [] => .error .indexError

end Soapfish
