import Verif.Files
/-
`urllib.parse.urljoin` (CPython Lib/urllib/parse.py), which `rewrite_paths` calls for documents that came from a URL
(soapfish/xsd2py.py:30-32).
-/
namespace Soapfish

/-- `uses_relative` -/
def usesRelative : List Str :=
  [[], py"ftp", py"http", py"gopher", py"nntp", py"imap", py"wais", py"file", py"https", py"shttp", py"mms", py"prospero",
    py"rtsp", py"rtsps", py"rtspu", py"sftp", py"svn", py"svn+ssh", py"ws", py"wss"]

/-- `uses_netloc` -/
def usesNetloc : List Str :=
  [[], py"ftp", py"http", py"gopher", py"nntp", py"telnet", py"imap", py"wais", py"file", py"mms", py"https", py"shttp",
    py"snews", py"prospero", py"rtsp", py"rtsps", py"rtspu", py"rsync", py"svn", py"svn+ssh", py"sftp", py"nfs", py"git",
    py"git+ssh", py"ws", py"wss"]

/-- `urlparse(url, scheme)`: the scheme is for a URL that does not say it. -/
def urlparseFrom (netlocOk : Str → Bool) (scheme url : Str) : Except Exn Url :=
  let s := splitScheme (cleanUrl url)
  let n := splitNetloc s.2
  let f := cutAt '#' n.2
  let q := cutAt '?' f.1
  let scheme := if s.1 = [] then scheme else s.1
  let p := if scheme ∈ usesParams then splitParams q.1 else (q.1, [])
  (checkNetloc netlocOk n.1).map fun _ =>
    { scheme := scheme, netloc := n.1, path := p.1, params := p.2, query := q.2, fragment := f.2 }

/-- `urlunparse` -/
def urlJoinParts (u : Url) : Str :=
  let url := u.path ++ delimited ';' u.params
  let url :=
    if u.netloc ≠ [] ∨ (u.scheme ≠ [] ∧ u.scheme ∈ usesNetloc) ∨ startsWith py"//" url then
      py"//" ++ u.netloc ++ (if url ≠ [] ∧ url.head? ≠ some '/' then '/' :: url else url)
    else url
  let url := if u.scheme = [] then url else u.scheme ++ ':' :: url
  url ++ delimited '?' u.query ++ delimited '#' u.fragment

/-- One round of the loop over the segments of a path in `urljoin`. -/
def urlStep (resolved : List Str) (seg : Str) : List Str :=
  if seg = py".." then resolved.dropLast else if seg = py"." then resolved else resolved ++ [seg]

/-- `segments[1:-1] = filter(None, segments[1:-1])` -/
def dropEmptyMiddle : List Str → List Str
  | [] => []
  | [x] => [x]
  | x :: y :: l => x :: ((y :: l).dropLast.filter (· ≠ []) ++ [(y :: l).getLast (by simp)])

/-- The segments of the path that `urljoin` resolves. -/
def urlSegments (bpath path : Str) : List Str :=
  if path.head? = some '/' then splitOn '/' path
  else
    let parts := splitOn '/' bpath
    dropEmptyMiddle ((if parts.getLast? = some [] then parts else parts.dropLast) ++ splitOn '/' path)

/-- `urljoin(base, url)` -/
def urljoin (netlocOk : Str → Bool) (base url : Str) : Except Exn Str :=
  if base = [] then .ok url
  else if url = [] then .ok base
  else
    (urlparseFrom netlocOk [] base).bind fun b =>
    (urlparseFrom netlocOk b.scheme url).bind fun u =>
    if u.scheme ≠ b.scheme ∨ u.scheme ∉ usesRelative then .ok url
    else if u.scheme ∈ usesNetloc ∧ u.netloc ≠ [] then .ok (urlJoinParts u)
    else
      let netloc := if u.scheme ∈ usesNetloc then b.netloc else u.netloc
      if u.path = [] ∧ u.params = [] then
        .ok (urlJoinParts { u with netloc := netloc, path := b.path, params := b.params,
                                   query := if u.query = [] then b.query else u.query })
      else
        let segments := urlSegments b.path u.path
        let resolved := segments.foldl urlStep []
        let resolved := if segments.getLast? = some py"." ∨ segments.getLast? = some py".." then resolved ++ [[]] else resolved
        let path := ['/'].intercalate resolved
        .ok (urlJoinParts { u with netloc := netloc, path := if path = [] then py"/" else path })

end Soapfish
