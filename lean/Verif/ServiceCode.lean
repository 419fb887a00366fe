import Verif.Describe
import Verif.Url
import Verif.Wsdl
import Verif.Imports
/-
The Python code generated from a WSDL document (soapfish/templates/wsdl.jinja2, soapfish/wsdl2py.py:73-105), as a list of
statements.  Layout and comments are left out, except that the comment with `url_regex` may fail.  Text put between
quotes is kept as it stands in the source.

The input is a description as read from the document.  Imported WSDL documents are merged into it before
(`Verif/Imports.lean`).
-/
namespace Soapfish

/-! ### Statements -/

/-- `input=` or `output=` with the text of the part's name, or a class. -/
inductive PyParam where
  | element (name part : Str)
  | cls (name : Str)
  deriving DecidableEq

/-- The value of a field in a header class: `SCHEMA.get_element_by_name('…')` or `xsd.Element(…())`. -/
inductive PyHeaderField where
  | element (name : Str)
  | cls (name : Str)
  deriving DecidableEq

/-- `class …Headers(BaseHeader)` -/
structure PyHeader where
  name : Str
  schema : Str
  fields : List (Str × PyHeaderField)
  deriving DecidableEq

/-- `…_method = xsd.Method(…)`, with the header classes in front of it.  `name` is the name of the operation; `function`
says whether the function of that name is passed. -/
structure PyMethod where
  name : Str
  headers : List PyHeader
  function : Bool
  soapAction : Str
  input : Option PyParam
  inputHeader : Option Str
  output : Option PyParam
  outputHeader : Option Str
  style : Option Str
  deriving DecidableEq

/-- `def name(request, parameter)` with `return result` -/
structure PyFunction where
  name : Str
  parameter : Str
  result : Str
  deriving DecidableEq

/-- `class …ServiceStub(soap.Stub)`: `SCHEME`, `HOST`, and methods `def name(self, parameter, header=None)` that return
`self.call('name', parameter, header=header)`. -/
structure PyStub where
  scheme : Str
  host : Str
  calls : List (Str × Str)
  deriving DecidableEq

/-- The statements for a port: functions (for a server), methods, `…_SERVICE = soap.Service(…)`, the stub (for a client). -/
structure PyPort where
  functions : List PyFunction
  methods : List PyMethod
  name : Str
  targetNamespace : Str
  location : Str
  schemas : List Str
  version : Version
  stub : Option PyStub
  deriving DecidableEq

/-- The whole module: the code for the schemas, and the ports. -/
structure PyWsdlModule where
  schemas : List PyModule
  ports : List PyPort

/-! ### The template -/

/-- `message.part` where an attribute of the part follows (`Message.part`, soapfish/wsdl11.py:83-87).  None has no `part`,
and something undefined has no attributes. -/
def onlyPart (message : Val) : Except Exn Val :=
  if message.isNone then .error .undefinedError
  else match readList message py"parts" with
    | [p] => .ok p
    | _ => .error .valueError

/-- `message.part.element|remove_namespace` -/
def partElement (message : Val) : Except Exn (Option Str) := do .ok (localPart (readStr (← onlyPart message) py"element"))

/-- `input=…` or `output=…` (soapfish/templates/wsdl.jinja2:75-82, 86-93) -/
def paramCode (message : Val) : Except Exn (Option PyParam) :=
  if readList message py"parts" = [] then .ok none
  else do
    let part ← onlyPart message
    match nonEmpty (readStr part py"element") with
    | some _ => .ok (some (.element (textOf (localPart (readStr part py"element"))) (textOf (readStr part py"name"))))
    | none => do .ok (some (.cls (← capitalizeO (localPart (readStr part py"type")))))

/-- `schema_select` (soapfish/utils.py:71-78) with `Schema.get_element_by_name` (soapfish/xsdspec.py:162-168) -/
def schemaSelect (schemas : List Val) (elements : List (Option Str)) : Option Val :=
  schemas.find? fun s => elements.all fun x => (readList s py"elements").any fun e => readStr e py"name" = localPart x

section
variable (digest : Str → Str)

/-- `Schema_{{ schema_name(…) }}`; the schemas have got the target namespace of the description if they have none. -/
def schemaVarOf (definitions schema : Val) : Except Exn Str :=
  schemaName digest ((readStr schema py"targetNamespace").or (readStr definitions py"targetNamespace"))

/-- `definitions.types.schemas` -/
def schemasOf (definitions : Val) : List Val := ((readChild definitions py"types").map (readList · py"schemas")).getD []

/-- A field of a header class (soapfish/templates/wsdl.jinja2:50-56, 62-68) -/
def headerField (part : Val) : Except Exn (Str × PyHeaderField) :=
  match nonEmpty (readStr part py"element") with
  | some _ => .ok (textOf (readStr part py"name"), .element (textOf (localPart (readStr part py"element"))))
  | none => do .ok (textOf (readStr part py"name"), .cls (← capitalizeO (localPart (readStr part py"type"))))

/-- A header class (soapfish/templates/wsdl.jinja2:47-58, 59-70); None as name of a message that is missing prints
nothing.  Without headers there is no class. -/
def headerCode (definitions message headers : Val) : Except Exn (Option PyHeader) :=
  match headers with
  | .list _ (p :: ps) => do
    let schema ← (match schemaSelect (schemasOf definitions) ((p :: ps).map (readStr · py"element")) with
      | some s => schemaVarOf digest definitions s
      | none => .error .typeError)
    let fields ← mapE headerField (p :: ps)
    let name := if message.isNone then [] else textOf (readStr message py"name")
    .ok (some { name := name ++ py"Headers", schema := schema, fields := fields })
  | _ => .ok none

/-- `operation.operation.soapAction`; nothing is printed if there is no `operation.operation`. -/
def soapActionText (operation : Val) : Str :=
  match readChild operation py"operation" with
  | some o => textOf (readStr o py"soapAction")
  | none => []

/-- `operation.operation.style`, if there is one -/
def styleText (operation : Val) : Option Str :=
  match readChild operation py"operation" with
  | some o => nonEmpty (readStr o py"style")
  | none => none

/-- The statements for a method (soapfish/templates/wsdl.jinja2:42-104) -/
def methodCode (server : Bool) (definitions binding operation : Val) : Except Exn PyMethod := do
  let im ← getMessageObject definitions binding operation py"input"
  let om ← getMessageObject definitions binding operation py"output"
  let imh ← getMessageHeader definitions operation py"input"
  let omh ← getMessageHeader definitions operation py"output"
  let ih ← headerCode digest definitions im imh
  let oh ← headerCode digest definitions om omh
  let input ← paramCode im
  let output ← paramCode om
  .ok { name := textOf (readStr operation py"name"), headers := ih.toList ++ oh.toList, function := server
        soapAction := soapActionText operation, input := input, inputHeader := ih.map (·.name), output := output
        outputHeader := oh.map (·.name), style := styleText operation }

/-- A function of a server (soapfish/templates/wsdl.jinja2:27-36) -/
def functionCode (definitions binding operation : Val) : Except Exn PyFunction := do
  let im ← getMessageObject definitions binding operation py"input"
  let om ← getMessageObject definitions binding operation py"output"
  .ok { name := textOf (readStr operation py"name"), parameter := textOf (← partElement im)
        result := textOf (← partElement om) }

/-- A method of the stub (soapfish/templates/wsdl.jinja2:145-149) -/
def callCode (definitions binding operation : Val) : Except Exn (Str × Str) := do
  let im ← getMessageObject definitions binding operation py"input"
  .ok (textOf (readStr operation py"name"), textOf (← partElement im))

/-- `port.address.location` -/
def addressOf (port : Val) : Option Str := (readChild port py"address").bind (readStr · py"location")

section
variable (netlocOk : Str → Bool)

/-- A filter for URLs; `urlparse` makes bytes from None, which do not go together with text. -/
def onUrl {α : Type} (f : Str → Except Exn α) : Option Str → Except Exn α
  | some u => f u
  | none => .error .typeError

/-- The comment with `url_regex` (soapfish/templates/wsdl.jinja2:134) looks at the first port. -/
def regexComment (service : Val) : Except Exn Unit :=
  onUrl (fun u => do let _ ← urlparse netlocOk u; .ok ()) ((readList service py"ports").head?.bind addressOf)

/-- The stub (soapfish/templates/wsdl.jinja2:141-149) -/
def stubCode (definitions binding port : Val) : Except Exn PyStub := do
  let scheme ← onUrl (urlScheme netlocOk) (addressOf port)
  let host ← onUrl (urlNetloc netlocOk) (addressOf port)
  let calls ← mapE (callCode definitions binding) (readList binding py"operations")
  .ok { scheme := scheme, host := host, calls := calls }

/-- The statements for a port (soapfish/templates/wsdl.jinja2:17-151); a port whose binding has another transport is left
out. -/
def portCode (server : Bool) (v : Version) (definitions service port : Val) : Except Exn (Option PyPort) := do
  let binding ← getByName (← definitions.getA py"bindings") (← port.getA py"binding")
  if (readChild binding py"binding").bind (readStr · py"transport") = some nsSoapHttp then do
    let operations := readList binding py"operations"
    let functions ← (if server then mapE (functionCode definitions binding) operations else .ok [])
    let methods ← mapE (methodCode digest server definitions binding) operations
    let location ← onUrl (urlTemplate netlocOk) (addressOf port)
    let schemas ← mapE (schemaVarOf digest definitions) (schemasOf definitions)
    let stub ← (if server then do
      regexComment netlocOk service
      .ok none else do .ok (some (← stubCode netlocOk definitions binding port)))
    .ok (some { functions := functions, methods := methods, name := textOf (readStr port py"name")
                targetNamespace := textOf (readStr definitions py"targetNamespace"), location := location
                schemas := schemas, version := v, stub := stub })
  else .ok none

/-- All ports of all services -/
def portsOf (definitions : Val) : List (Val × Val) :=
  (readList definitions py"services").flatMap fun s => (readList s py"ports").map fun p => (s, p)

/-- The schemas in the order of `reorder_schemas`; the positions tell which is which. -/
def reorderDescribed (l : List DSchema) : List DSchema :=
  (reorderSchemas (l.zipIdx.map fun p => ⟨p.1.targetNamespace, p.1.imports, p.2⟩)).filterMap fun s => l[s.doc]?

/-- `generate_code_from_wsdl` (soapfish/wsdl2py.py:90-105) for a description without imports.  `v` is the SOAP version
detected in the document. -/
def wsdlToPy (prefixes : List (Option Str)) (n : Nat) (server : Bool) (v : Version) (definitions : Val) :
    Except Exn PyWsdlModule := do
  let tns := readStr definitions py"targetNamespace"
  let schemas := reorderDescribed ((schemasOf definitions).map readSchema)
  let modules ← mapE (schemaToPy prefixes digest n tns) schemas
  let ports ← mapE (fun p : Val × Val => portCode digest netlocOk server v definitions p.1 p.2) (portsOf definitions)
  .ok { schemas := modules, ports := ports.filterMap id }

end
end

/-- The element has that name. -/
def hasTag (q : QName) : Xml → Bool
  | .elem t _ _ _ => t = q
  | _ => false

def kidsOf : Xml → List Xml
  | .elem _ _ _ ks => ks
  | _ => []

/-- `SOAPVersion.get_version_from_xml` (soapfish/soap.py:33-36): `wsdl:binding/soap12:binding` -/
def versionFromXml (x : Xml) : Version :=
  if (kidsOf x).any (fun b => hasTag ⟨some nsWsdl, py"binding"⟩ b &&
    (kidsOf b).any (hasTag ⟨some Version.soap12.bindingNs, py"binding"⟩)) then .soap12 else .soap11

end Soapfish
