import Verif.Http
/-
URLs in the templates (soapfish/utils.py:98-111), with the functions of CPython's Lib/urllib/parse.py they call.
-/
namespace Soapfish

/-- The parts of a URL: the result of `urlparse`. -/
structure Url where
  scheme : Str := []
  netloc : Str := []
  path : Str := []
  params : Str := []
  query : Str := []
  fragment : Str := []
  deriving DecidableEq

def isAlphaC (c : Char) : Bool := (0x41 ≤ c.toNat && c.toNat ≤ 0x5a) || (0x61 ≤ c.toNat && c.toNat ≤ 0x7a)

/-- `scheme_chars` -/
def isSchemeChar (c : Char) : Bool :=
  isAlphaC c || (0x30 ≤ c.toNat && c.toNat ≤ 0x39) || c = '+' || c = '-' || c = '.'

/-- `url.lstrip(_WHATWG_C0_CONTROL_OR_SPACE)`, and the characters of `_UNSAFE_URL_BYTES_TO_REMOVE` removed. -/
def cleanUrl (url : Str) : Str :=
  (url.dropWhile (fun c => c.toNat ≤ 0x20)).filter fun c => !(c = '\t' || c = '\r' || c = '\n')

/-- Up to the first of some characters, and the rest from there on. -/
def upTo (stop : Char → Bool) (s : Str) : Str × Str := (s.takeWhile fun c => !stop c, s.dropWhile fun c => !stop c)

/-- The scheme in lower case, and what follows the colon. -/
def splitScheme (url : Str) : Str × Str :=
  match upTo (· = ':') url with
  | (c :: cs, _ :: rest) => if isAlphaC c && cs.all isSchemeChar then (lower (c :: cs), rest) else ([], url)
  | _ => ([], url)

/-- The network location after `//` (`_splitnetloc`). -/
def splitNetloc (url : Str) : Str × Str :=
  match url with
  | '/' :: '/' :: rest => upTo (fun c => c = '/' || c = '?' || c = '#') rest
  | _ => ([], url)

/-- `s.split(c, 1)`, with an empty second part if there is none -/
def cutAt (c : Char) (s : Str) : Str × Str := ((upTo (· = c) s).1, (upTo (· = c) s).2.tail)

/-- `uses_params` -/
def usesParams : List Str :=
  [[], py"ftp", py"hdl", py"prospero", py"http", py"imap", py"https", py"shttp", py"rtsp", py"rtsps", py"rtspu", py"sip",
    py"sips", py"mms", py"sftp", py"tel"]

/-- The text up to and with the last slash, and what follows. -/
def lastSlash : Str → Str × Str
  | [] => ([], [])
  | c :: s => if '/' ∈ c :: s then (c :: (lastSlash s).1, (lastSlash s).2) else ([], c :: s)

/-- The parameters of the last segment (`_splitparams`). -/
def splitParams (path : Str) : Str × Str :=
  ((lastSlash path).1 ++ (cutAt ';' (lastSlash path).2).1, (cutAt ';' (lastSlash path).2).2)

section
-- The checks of a host in brackets (`_check_bracketed_host`) and of a network location that is not ASCII (`_checknetloc`)
-- are given from outside.
variable (netlocOk : Str → Bool)

/-- The errors of `urlsplit` -/
def checkNetloc (n : Str) : Except Exn Unit :=
  if ('[' ∈ n ∧ ']' ∉ n) ∨ (']' ∈ n ∧ '[' ∉ n) then .error .valueError
  else if ('[' ∈ n ∨ n.any (fun c => 0x80 ≤ c.toNat)) ∧ netlocOk n = false then .error .valueError
  else .ok ()

/-- `urlparse` -/
def urlparse (url : Str) : Except Exn Url := do
  let s := splitScheme (cleanUrl url)
  let n := splitNetloc s.2
  checkNetloc netlocOk n.1
  let f := cutAt '#' n.2
  let q := cutAt '?' f.1
  let p := if s.1 ∈ usesParams then splitParams q.1 else (q.1, [])
  .ok { scheme := s.1, netloc := n.1, path := p.1, params := p.2, query := q.2, fragment := f.2 }

/-- A part with its delimiter in front, nothing if it is empty. -/
def delimited (c : Char) (s : Str) : Str := if s = [] then [] else c :: s

/-- `urlunparse` of parts with a scheme and a network location -/
def urlunparse (u : Url) : Str :=
  let url := u.path ++ delimited ';' u.params
  let url := if url = [] ∨ url.head? = some '/' then url else '/' :: url
  u.scheme ++ py"://" ++ u.netloc ++ url ++ delimited '?' u.query ++ delimited '#' u.fragment

/-- The filter `url_template` (soapfish/utils.py:108-111) -/
def urlTemplate (url : Str) : Except Exn Str := do
  let u ← urlparse netlocOk url
  .ok (urlunparse { u with scheme := py"${scheme}", netloc := py"${host}" })

/-- The filter `url_component('scheme')` (soapfish/utils.py:101-106) -/
def urlScheme (url : Str) : Except Exn Str := do .ok (← urlparse netlocOk url).scheme

/-- The filter `url_component('netloc')` -/
def urlNetloc (url : Str) : Except Exn Str := do .ok (← urlparse netlocOk url).netloc

end

end Soapfish
