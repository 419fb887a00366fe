import Verif.Files
import Verif.ServiceCode
/-
Code for the schemas of a WSDL document that include or import XSD documents (soapfish/wsdl2py.py:97-99).
-/
namespace Soapfish

/-- A schema of a WSDL document as `schema_to_py` sees it; `prefixes` are those of the whole document
(soapfish/wsdl2py.py:87, soapfish/xsd2py.py:120-128). -/
def schemaFile (prefixes : List (Option Str)) (s : Val) : DFile where
  prefixes := prefixes
  schema := readSchema s
  importLocations := (readList s py"imports").map (readStr · py"schemaLocation")

/-- `reorder_schemas` (soapfish/wsdl2py.py:18-33) on the schemas themselves; the positions tell which is which. -/
def reorderVals (l : List Val) : List Val :=
  (reorderSchemas (l.zipIdx.map fun p => ⟨(readSchema p.1).targetNamespace, (readSchema p.1).imports, p.2⟩)).filterMap fun s => l[s.doc]?

/-- `''.join(schema_to_py(schema, …) for schema in schemas)` (soapfish/wsdl2py.py:97-99): the code for each schema, which begins with the
code for the documents it refers to.  Each call of `schema_to_py` begins with empty `known_paths` and `known_types`. -/
def wsdlFiles (wd : Str) (urljoin : Str → Str → Str) (netlocOk : Str → Bool) (digest : Str → Str) (read : Str → Except Exn DFile)
    (prefixes : List (Option Str)) (cwd : Str) (n : Nat) (parent : Option Str) (schemas : List Val) : Except Exn (List (List FileCode)) :=
  mapE (fun s => (filesCode wd urljoin netlocOk digest read cwd n parent cwd [] [] [] (schemaFile prefixes s)).map (·.1)) (reorderVals schemas)

end Soapfish
