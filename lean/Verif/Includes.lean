import Verif.Paths
/-
Included and imported XSD documents while code is generated (soapfish/xsd2py.py:26-77, 122-155,
soapfish/templates/xsd.jinja2:8-17).
-/
namespace Soapfish

/-- An XSD document as far as the traversal looks at it: the schema locations of its includes, then those of its imports,
and the code generated for the rest of it. -/
structure XsdFile where
  locations : List (Option Str)
  code : Nat
  deriving DecidableEq

/-- `rewrite_paths` (soapfish/xsd2py.py:26-43) -/
def rewritePaths (wd : Str) (urljoin : Str → Str → Str) (cwd base : Str) : List (Option Str) → Except Exn (List (Option Str))
  | [] => .ok []
  | l :: ls => (rewriteLocation wd urljoin cwd base l).bind fun l' =>
      (rewritePaths wd urljoin cwd base ls).map (l' :: ·)

/-- The loops over includes and imports of the template (soapfish/templates/xsd.jinja2:8-17) with `resolve_import` and the
check of `generate_code_from_xsd` (soapfish/xsd2py.py:46-77): the locations, the code so far and `known_paths`. `nested`
is `schema_to_py` with directory, known paths and location. -/
def includeLoop (wd : Str) (read : Str → Except Exn XsdFile) (base : Str)
    (nested : Str → List Str → Str → XsdFile → Except Exn (List Nat × List Str)) :
    List (Option Str) → List Nat → List Str → Except Exn (List Nat × List Str)
  | [], out, known => .ok (out, known)
  | none :: ls, out, known => includeLoop wd read base nested ls out known
  | some l :: ls, out, known =>
    if l = [] then includeLoop wd read base nested ls out known
    else
      (resolveLocation wd l base).bind fun r =>
        (read r.1).bind fun file =>
          if r.2.2 ≠ [] ∧ r.2.2 ∈ known then includeLoop wd read base nested ls out known
          else (nested r.2.1 known r.2.2 file).bind fun m => includeLoop wd read base nested ls (out ++ m.1) m.2

/-- `schema_to_py` (soapfish/xsd2py.py:122-155) as far as other documents are concerned: directory, `known_paths`,
location (empty for None) and document give the code, document by document, and the new `known_paths`. The first argument
bounds the depth of the recursion, as Python does. -/
def generateXsd (wd : Str) (urljoin : Str → Str → Str) (read : Str → Except Exn XsdFile) (base : Str) :
    Nat → Str → List Str → Str → XsdFile → Except Exn (List Nat × List Str)
  | 0, _, _, _, _ => .error .recursionError
  | n + 1, cwd, known, location, file =>
    (rewritePaths wd urljoin cwd base file.locations).bind fun ls =>
      (includeLoop wd read base (generateXsd wd urljoin read base n) ls []
        (if location = [] then known else known ++ [location])).map fun m => (m.1 ++ [file.code], m.2)

end Soapfish
