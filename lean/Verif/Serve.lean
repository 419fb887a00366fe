import Verif.Schemas
import Verif.Wsdl
/-
Making a dispatcher (soapfish/soap_dispatch.py:25-53, 235-237): the documents it serves.
-/
namespace Soapfish

/-- `'?xsd=%s' % e.attrib['schemaLocation']` (soapfish/soap_dispatch.py:237); the other attributes stay where they are. -/
def relink : List (QName × Str) → Except Exn (List (QName × Str))
  | [] => .error .keyError
  | (q, v) :: as =>
    if q = ⟨none, py"schemaLocation"⟩ then .ok ((q, py"?xsd=" ++ v) :: as)
    else do .ok ((q, v) :: (← relink as))

/-- `//xsd:import|//xsd:include` -/
def isLink (q : QName) : Bool := q = ⟨some nsXsd, py"import"⟩ || q = ⟨some nsXsd, py"include"⟩

mutual
/-- `_rewrite_locations` (soapfish/soap_dispatch.py:235-237): the document afterwards. -/
def rewriteLocations : Xml → Except Exn Xml
  | .elem q as t ks => do
    let as ← (if isLink q then relink as else .ok as)
    let ks ← rewriteAll ks
    .ok (.elem q as t ks)
  | x => .ok x
def rewriteAll : List Xml → Except Exn (List Xml)
  | [] => .ok []
  | x :: xs => do
    let y ← rewriteLocations x
    let ys ← rewriteAll xs
    .ok (y :: ys)
end

section
variable (W : World) (types : SchemaId → GSchema)

/-- What the generator sees of a schema object (soapfish/xsd.py:1093-1150): its types and elements are in `types`, imports
and includes are other schema objects. -/
def World.shown (i : SchemaId) : GSchema :=
  { types i with
    targetNamespace := (W.schema i).targetNamespace
    imports := (W.schema i).imports.map fun j => ((W.schema j).targetNamespace, (W.schema j).location)
    includes := (W.schema i).includes.map fun j => (W.schema j).location }

/-- `py2xsd.schema_validator` (soapfish/py2xsd.py:213-252): the documents of all schemas are parsed as one document, which
only works for one of them.  `compile` is what lxml makes of this document and of those that it refers to. -/
def schemaValidator (v : Version) (compile : Xml → List (Option Str × SchemaId) → Except Exn (Xml → Except Exn Unit))
    (schemas : List SchemaId) : Except Exn (Xml → Except Exn Unit) := do
  let lookup ← walkSchemaTree W Except.ok W.depth schemas []
  match ← mapE (fun i => generateSchema v W.depth (W.shown types i)) schemas with
  | [x] => compile x lookup
  | _ => .error .xmlSyntaxError

/-- `SOAPDispatcher(service, …)` (soapfish/soap_dispatch.py:25-53) without documents of its own.  `service` is what the
dispatcher and `info` what the WSDL generator looks at; its schemas are those of the service. -/
def newDispatcher (compile : Xml → List (Option Str × SchemaId) → Except Exn (Xml → Except Exn Unit)) (service : Service)
    (info : WService) (middlewares : List Middleware) (hooks : Dict Hook) (strict : Bool) : Except Exn Dispatcher := do
  let validator ← schemaValidator W types info.version compile service.schemas
  checkHooks hooks.keys
  let wsdl ← generateWsdl W.depth { info with schemas := service.schemas.map (W.shown types) }
  let wsdl ← rewriteLocations wsdl
  let xsds ← walkSchemaTree W (fun i => do
    let xsd ← generateSchema info.version W.depth (W.shown types i)
    let xsd ← rewriteLocations xsd
    .ok (W.write xsd)) W.depth service.schemas []
  .ok { service := service, middlewares := middlewares, hooks := hooks, wsdl := W.write wsdl, xsds := xsds, strict := strict
        validator := validator }

end

end Soapfish
