import Verif.Includes
import Verif.Run
import Verif.Url
/-
Code for XSD documents that include or import each other, and what happens when the module is imported
(soapfish/xsd2py.py:26-77, 122-155, soapfish/templates/xsd.jinja2, soapfish/templates/lib.jinja2:14-40).
-/
namespace Soapfish

/-- An XSD document that has been read: the prefixes of the XML Schema namespace, the Schema object and the schema
locations of its imports (`schema.imports` has their namespaces, `schema.includes` the locations of the includes). -/
structure DFile where
  prefixes : List (Option Str)
  schema : DSchema
  importLocations : List (Option Str) := []
  deriving DecidableEq

/-- The schema locations in the order of `itertools.chain(schema.includes, schema.imports)` (soapfish/xsd2py.py:27) and of the
template (soapfish/templates/xsd.jinja2:8-17). -/
def DFile.locations (d : DFile) : List (Option Str) := d.schema.includes ++ d.importLocations

/-- The code of one document: classes and schema, and for a document with a location the text of the argument `location`
and the second variable of the schema (soapfish/templates/lib.jinja2:19-20, 29-33). -/
structure FileCode where
  module : PyModule
  second : Option (Str × Str) := none
  deriving DecidableEq

/-- The template for one document (soapfish/templates/xsd.jinja2:18-49) whose locations have been rewritten to `ls`; an empty
location stands for None. -/
def fileCode (netlocOk : Str → Bool) (digest : Str → Str) (types : List Str) (location : Str) (ls : List (Option Str))
    (prefixes : List (Option Str)) (d : DSchema) : Except Exn (FileCode × List Str) := do
  let r ← schemaCode prefixes digest types { d with includes := ls.take d.includes.length }
  if location = [] then .ok ({ module := r.1 }, r.2)
  else do
    let url ← urlTemplate netlocOk location
    let second ← schemaName digest (some location)
    .ok ({ module := r.1, second := some (url, second) }, r.2)

/-- The loops over includes and imports of the template (soapfish/templates/xsd.jinja2:8-17) with `resolve_import` and the
check of `generate_code_from_xsd` (soapfish/xsd2py.py:46-77): the locations, the code so far, `known_paths` and `known_types`.
`resolve_import` is called with the target namespace, but `generate_code_from_xsd` does not hand it on. -/
def filesLoop (wd : Str) (read : Str → Except Exn DFile) (base : Str)
    (nested : Str → List Str → List Str → Str → DFile → Except Exn (List FileCode × List Str × List Str)) :
    List (Option Str) → List FileCode → List Str → List Str → Except Exn (List FileCode × List Str × List Str)
  | [], out, known, types => .ok (out, known, types)
  | none :: ls, out, known, types => filesLoop wd read base nested ls out known types
  | some l :: ls, out, known, types =>
    if l = [] then filesLoop wd read base nested ls out known types
    else
      (resolveLocation wd l base).bind fun r =>
        (read r.1).bind fun file =>
          if r.2.2 ≠ [] ∧ r.2.2 ∈ known then filesLoop wd read base nested ls out known types
          else (nested r.2.1 known types r.2.2 file).bind fun m =>
            filesLoop wd read base nested ls (out ++ m.1) m.2.1 m.2.2

/-- `schema_to_py` (soapfish/xsd2py.py:122-155) for a document and those it includes or imports: parent namespace, directory,
`known_paths`, `known_types`, location and document give the code, document by document, and the new `known_paths` and
`known_types`.  The first argument bounds the depth of the recursion, as Python does. -/
def filesCode (wd : Str) (urljoin : Str → Str → Str) (netlocOk : Str → Bool) (digest : Str → Str)
    (read : Str → Except Exn DFile) (base : Str) :
    Nat → Option Str → Str → List Str → List Str → Str → DFile → Except Exn (List FileCode × List Str × List Str)
  | 0, _, _, _, _, _, _ => .error .recursionError
  | n + 1, parent, cwd, known, types, location, file =>
    (rewritePaths wd urljoin cwd base file.locations).bind fun ls =>
    (reorderComplex n file.schema.complexTypes).bind fun cts =>
    (filesLoop wd read base (filesCode wd urljoin netlocOk digest read base n none) ls []
        (if location = [] then known else known ++ [location]) types).bind fun m =>
    (fileCode netlocOk digest m.2.2 location ls file.prefixes
        { file.schema with complexTypes := cts, targetNamespace := file.schema.targetNamespace.or parent }).map fun c =>
      (m.1 ++ [c.1], m.2.1, c.2)

/-- The statements of the code of one document: classes, the schema object, its second variable
(soapfish/templates/lib.jinja2:14-35). -/
def execFile (limit : Nat) (vars : SchemaVars) (env : PyEnv) (c : FileCode) :
    Except ImportErr (PyEnv × SchemaVars × GSchema) := do
  let r ← execModule vars env limit c.module
  match c.second with
  | none => .ok (r.1, (c.module.schema.var, r.2.targetNamespace, none) :: vars, r.2)
  | some p => do
    let location ← literal (textValue '\'' p.1)
    .ok (r.1, (p.2, r.2.targetNamespace, some location) :: (c.module.schema.var, r.2.targetNamespace, some location) :: vars, r.2)

/-- Importing a module with the code of several documents.  (Python checks the syntax of the whole module first.) -/
def execFiles (limit : Nat) : SchemaVars → PyEnv → List FileCode → Except ImportErr (PyEnv × SchemaVars × List GSchema)
  | vars, env, [] => .ok (env, vars, [])
  | vars, env, c :: cs => do
    let r ← execFile limit vars env c
    let s ← execFiles limit r.2.1 r.1 cs
    .ok (s.1, s.2.1, r.2.2 :: s.2.2)

end Soapfish
