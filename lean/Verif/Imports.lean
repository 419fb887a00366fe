import Verif.Paths
/-
Schemas and imported documents while code is generated from a WSDL document (soapfish/wsdl2py.py:20-74).
-/
namespace Soapfish

/-! ### `reorder_schemas` -/

/-- What `reorder_schemas` looks at: the target namespace and the namespaces of the imports; `doc` tells schemas apart. -/
structure WsdlSchema where
  target : Option Str
  imports : List (Option Str)
  doc : Nat
  deriving DecidableEq

/-- The loop of `reorder_schemas` (soapfish/wsdl2py.py:21-30): the counter, the queue, the schemas taken so far and their
targets. `ns and ns - targets` holds when some imported namespace is not a target yet. -/
def reorderLoop : Nat → List WsdlSchema → List WsdlSchema → List (Option Str) → List WsdlSchema × List WsdlSchema
  | 0, x, schemas, _ => (schemas, x)
  | _ + 1, [], schemas, _ => (schemas, [])
  | n + 1, s :: x, schemas, targets =>
    if x ≠ [] ∧ s.imports.any (fun i => decide (i ∉ targets)) then reorderLoop n (x ++ [s]) schemas targets
    else reorderLoop n x (schemas ++ [s]) (s.target :: targets)

/-- `reorder_schemas` (soapfish/wsdl2py.py:20-32) -/
def reorderSchemas (schemas : List WsdlSchema) : List WsdlSchema :=
  let r := reorderLoop schemas.length schemas [] []
  r.1 ++ r.2

/-! ### `merge_imports` -/

/-- A `Definitions` instance as far as `merge_imports` looks at it: the locations of its imports and the contents. The
contents are instances, which compare by what they serialise to (C34); here they are values. A missing location (TypeError) is not modelled. -/
structure Definitions where
  imports : List Str
  schemas : List Nat := []
  services : List Nat := []
  bindings : List Nat := []
  messages : List Nat := []
  portTypes : List Nat := []
  deriving DecidableEq

/-- `deduplicate` (soapfish/wsdl2py.py:37-39): the items in order, without later repetitions. -/
def dedupAux (seen : List Nat) : List Nat → List Nat
  | [] => []
  | x :: xs => if x ∈ seen then dedupAux seen xs else x :: dedupAux (x :: seen) xs

def deduplicate (seq : List Nat) : List Nat := dedupAux [] seq

/-- Taking over the contents of an imported document (soapfish/wsdl2py.py:61-69). -/
def absorb (imported d : Definitions) : Definitions :=
  { imports := d.imports
    schemas := if imported.schemas = [] then d.schemas else deduplicate (imported.schemas ++ d.schemas)
    services := deduplicate (imported.services ++ d.services)
    bindings := deduplicate (imported.bindings ++ d.bindings)
    messages := deduplicate (imported.messages ++ d.messages)
    portTypes := deduplicate (imported.portTypes ++ d.portTypes) }

/-- The loop of `merge_imports` (soapfish/wsdl2py.py:44-69): the imports still to be treated, the directory — which the loop
reassigns —, the definitions merged into and the paths seen. `read` opens and parses a document, `nested` is the recursive
call. -/
def mergeLoop (wd : Str) (read : Str → Except Exn Definitions)
    (nested : List Str → Str → Definitions → List Str → Except Exn (Definitions × List Str)) :
    List Str → Str → Definitions → List Str → Except Exn (Definitions × List Str)
  | [], _, d, seen => .ok (d, seen)
  | i :: is, cwd, d, seen =>
    (resolveLocation wd i cwd).bind fun r =>
      if r.1 ∈ seen then mergeLoop wd read nested is r.2.1 d seen
      else
        (read r.1).bind fun imported =>
          (if imported.imports ≠ [] then nested imported.imports r.2.1 imported (r.1 :: seen)
            else .ok (imported, r.1 :: seen)).bind fun m =>
              mergeLoop wd read nested is r.2.1 (absorb m.1 d) m.2

/-- `merge_imports` (soapfish/wsdl2py.py:35-69); the first argument bounds the depth of the recursion, as Python does. -/
def mergeImports (wd : Str) (read : Str → Except Exn Definitions) :
    Nat → List Str → Str → Definitions → List Str → Except Exn (Definitions × List Str)
  | 0, _, _, _, _ => .error .recursionError
  | n + 1, is, cwd, d, seen => mergeLoop wd read (mergeImports wd read n) is cwd d seen

end Soapfish
