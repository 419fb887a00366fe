import Verif.Http
/-
File paths (CPython 3.12 Lib/posixpath.py) and locations of documents (soapfish/utils.py:19-27,
soapfish/xsd2py.py:20-37).
-/
namespace Soapfish

/-- `os.path.join(a, b)` -/
def pathJoin (a b : Str) : Str :=
  if startsWith ['/'] b then b
  else if a = [] ∨ a.getLast? = some '/' then a ++ b
  else a ++ '/' :: b

/-- `os.path.join(*parts)` for at least one part. -/
def pathJoinAll : List Str → Str
  | [] => []
  | p :: ps => ps.foldl pathJoin p

/-- One round of the loop of `normpath`. -/
def normStep (absolute : Bool) (stack : List Str) (c : Str) : List Str :=
  if c = [] ∨ c = py"." then stack
  else if c ≠ py".." ∨ (absolute = false ∧ stack = []) ∨ stack.getLast? = some py".." then stack ++ [c]
  else stack.dropLast

/-- The slashes a normalised path begins with. -/
def initialSlashes (p : Str) : Str :=
  if startsWith py"//" p ∧ ¬ startsWith py"///" p then py"//"
  else if startsWith py"/" p then py"/" else []

/-- `os.path.normpath` -/
def normPath (p : Str) : Str :=
  if p = [] then py"."
  else
    let comps := (splitOn '/' p).foldl (normStep (startsWith py"/" p)) []
    let r := initialSlashes p ++ ['/'].intercalate comps
    if r = [] then py"." else r

/-- `os.path.abspath`; `wd` is the working directory of the process. -/
def absPath (wd p : Str) : Str := normPath (if startsWith py"/" p then p else pathJoin wd p)

/-- Length of the common prefix of two lists (`os.path.commonprefix`). -/
def commonLen : List Str → List Str → Nat
  | a :: as, b :: bs => if a = b then commonLen as bs + 1 else 0
  | _, _ => 0

/-- `[x for x in abspath(p).split('/') if x]` -/
def absParts (wd p : Str) : List Str := (splitOn '/' (absPath wd p)).filter (· ≠ [])

/-- `os.path.relpath(path, start)` -/
def relPath (wd path start : Str) : Except Exn Str :=
  if path = [] then .error .valueError
  else
    let s := absParts wd start
    let p := absParts wd path
    let i := commonLen s p
    let rel := List.replicate (s.length - i) py".." ++ p.drop i
    .ok (if rel = [] then py"." else pathJoinAll rel)

/-- `s.rstrip('/')` -/
def rstripSlash (s : Str) : Str := (s.reverse.dropWhile (· = '/')).reverse

/-- `p[:p.rfind('/') + 1]` -/
def upToSlash (p : Str) : Str := (p.reverse.dropWhile (· ≠ '/')).reverse

/-- `os.path.dirname` -/
def dirName (p : Str) : Str :=
  let head := upToSlash p
  if head ≠ [] ∧ ¬ head.all (· = '/') then rstripSlash head else head

/-- `resolve_location` (soapfish/utils.py:19-27): path, directory, location. -/
def resolveLocation (wd path cwd : Str) : Except Exn (Str × Str × Str) :=
  if hasSub py"://" path then .ok (path, cwd, path)
  else do
    let p := pathJoin cwd path
    let loc ← relPath wd p cwd
    .ok (p, dirName p, loc)

/-- One location in `rewrite_paths` (soapfish/xsd2py.py:26-37); `urljoin` resolves relative to a URL. -/
def rewriteLocation (wd : Str) (urljoin : Str → Str → Str) (cwd base : Str) (loc : Option Str) : Except Exn (Option Str) :=
  match loc with
  | none => .ok none
  | some l =>
    if hasSub py"://" l then .ok (some l)
    else if hasSub py"://" cwd then .ok (some (urljoin cwd l))
    else (relPath wd (normPath (pathJoin cwd l)) base).map some

end Soapfish
