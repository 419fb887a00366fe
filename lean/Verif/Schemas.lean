import Verif.Dispatch
/-
Walking schemas and binding functions (soapfish/utils.py:71-79, 183-192, soapfish/soap.py:60-80).
-/
namespace Soapfish

section
variable (W : World)

/-- `itertools.chain(schema.imports, schema.includes)` -/
def World.items (s : SchemaId) : List SchemaId := (W.schema s).imports ++ (W.schema s).includes

/-- `walk_schema_tree` (soapfish/utils.py:183-192); `seen` is the dict, whose keys are locations (None included); the
number is the recursion depth left.  The callback is a function; what else it does is not modelled, but it is called
exactly for the entries, in this order. -/
def walkSchemaTree {β : Type} (callback : SchemaId → Except Exn β) :
    Nat → List SchemaId → List (Option Str × β) → Except Exn (List (Option Str × β))
  | 0, _, _ => .error .recursionError
  | n + 1, schemas, seen =>
    foldE (fun seen schema =>
      foldE (fun seen item =>
        if (seen.map (·.1)).contains (W.schema item).location then .ok seen
        else do
          let v ← callback item
          walkSchemaTree callback n [item] (seen ++ [((W.schema item).location, v)])) seen (W.items schema)) seen schemas

/-- `Service.route(operationName)(func)` (soapfish/soap.py:71-80): the method objects afterwards. -/
def Service.route (S : Service) (op : Str) (f : ReqId → Val → Prog Empty Ret) : Except Exn (MethodId → Method) := do
  let m ← S.getMethod W op
  .ok fun m' => if m' = m then { W.method m' with function := some f } else W.method m'

end

end Soapfish
