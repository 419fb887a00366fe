import Verif.Generate
/-
WSDL generation (soapfish/py2wsdl.py:19-132) and lookup in WSDL descriptions (soapfish/wsdl.py:5-35).

As in `Verif/Generate.lean`, nested objects are filled before they are put into their parent; the code assigns
`operation.operation` and `binding.binding` first and fills them through the parent afterwards, which is the same
because assignment keeps the object.
-/
namespace Soapfish

/-! ### Input -/

/-- `method.input` or `method.output`: the name of an element, a class, or None. -/
inductive WPart where
  | element (name : Str)
  | cls (name : Str)
  | none
  deriving DecidableEq, Repr

/-- What the generator looks at of a Method (soapfish/xsd.py:1164-1184).  `style` is a member of CallStyle or any other
text. -/
structure WMethod where
  operationName : Str
  soapAction : Option Str
  input : WPart
  output : WPart
  style : Option Str := some py"document"

/-- What the generator looks at of a Service (soapfish/soap.py:39-56).  The two SOAP versions are the only ones with a
BINDING_NAMESPACE that `get_wsdl_classes` (soapfish/wsdl.py:38-45) knows. -/
structure WService where
  name : Str := py"Service"
  targetNamespace : Str
  location : Option Str
  schemas : List GSchema
  methods : List WMethod
  version : Version := .soap11

/-! ### The generator -/

section
variable (v : Version) (D : Nat)

/-- Several assignments `obj.name = value` in a row. -/
def setAll (obj : Val) (values : List (Str × Val)) : Except Exn Val :=
  foldE (fun o p => setSpec v D o p.1 p.2) obj values

/-- `build_service` (soapfish/py2wsdl.py:20-30) -/
def buildService (definitions : Val) (s : WService) : Except Exn Val := do
  let port ← mkSpec v D wPort []
  let port ← setAll v D port [(py"name", strV (s.name ++ py"Port")),
    (py"binding", strV (py"tns:" ++ s.name ++ py"Binding"))]
  let address ← mkSpec v D wSoapAddress [(py"location", optStr s.location)]
  let port ← setSpec v D port py"address" address
  let service ← mkSpec v D wService []
  let service ← setSpec v D service py"name" (strV s.name)
  let service ← appendSpec v D py"ports" service port
  appendSpec v D py"services" definitions service

/-- One operation of the binding (soapfish/py2wsdl.py:42-49). -/
def bindingOperation (m : WMethod) : Except Exn Val := do
  let operation ← mkSpec v D wOperation []
  let operation ← setSpec v D operation py"name" (strV m.operationName)
  let soap ← mkSpec v D wSoapOperation []
  let soap ← setSpec v D soap py"soapAction" (optStr m.soapAction)
  let body ← mkSpec v D wSoapBody [(py"use", strV py"literal")]
  let input ← mkSpec v D wInput [(py"body", body)]
  let operation ← setSpec v D operation py"input" input
  let body ← mkSpec v D wSoapBody [(py"use", strV py"literal")]
  let output ← mkSpec v D wOutput [(py"body", body)]
  let operation ← setSpec v D operation py"output" output
  let soap ← setSpec v D soap py"style" (optStr m.style)
  setSpec v D operation py"operation" soap

/-- `build_bindings` (soapfish/py2wsdl.py:33-52) -/
def buildBindings (definitions : Val) (s : WService) : Except Exn Val := do
  let binding ← mkSpec v D wBinding []
  let binding ← setAll v D binding [(py"name", strV (s.name ++ py"Binding")),
    (py"type", strV (py"tns:" ++ s.name ++ py"PortType"))]
  let soap ← mkSpec v D wSoapBinding []
  let soap ← setAll v D soap [(py"style", strV py"document"), (py"transport", strV nsSoapHttp)]
  let binding ← setSpec v D binding py"binding" soap
  let binding ← foldE (fun b m => do appendSpec v D py"operations" b (← bindingOperation v D m)) binding s.methods
  appendSpec v D py"bindings" definitions binding

/-- One operation of the port type (soapfish/py2wsdl.py:60-63). -/
def portTypeOperation (m : WMethod) : Except Exn Val := do
  let operation ← mkSpec v D wOperation []
  let operation ← setSpec v D operation py"name" (strV m.operationName)
  let input ← mkSpec v D wInput [(py"message", strV (py"tns:" ++ m.operationName ++ py"Input"))]
  let operation ← setSpec v D operation py"input" input
  let output ← mkSpec v D wOutput [(py"message", strV (py"tns:" ++ m.operationName ++ py"Output"))]
  setSpec v D operation py"output" output

/-- `build_portTypes` (soapfish/py2wsdl.py:55-66) -/
def buildPortTypes (definitions : Val) (s : WService) : Except Exn Val := do
  let portType ← mkSpec v D wPortType []
  let portType ← setSpec v D portType py"name" (strV (s.name ++ py"PortType"))
  let portType ← foldE (fun p m => do appendSpec v D py"operations" p (← portTypeOperation v D m)) portType s.methods
  appendSpec v D py"portTypes" definitions portType

/-- The part of a message; None has no `__name__` (soapfish/py2wsdl.py:72-76, 81-85). -/
def messagePart (p : WPart) : Except Exn Val := do
  let part ← mkSpec v D wPart [(py"name", strV py"body")]
  match p with
  | .element name => setSpec v D part py"element" (strV (py"sns:" ++ name))
  | .cls name => do
    let n ← uncapitalize name
    setSpec v D part py"type" (strV (py"sns:" ++ n))
  | .none => .error .attributeError

/-- One message (soapfish/py2wsdl.py:71-78, 80-87). -/
def addMessage (definitions : Val) (name : Str) (p : WPart) : Except Exn Val := do
  let message ← mkSpec v D wMessage [(py"name", strV name)]
  let part ← messagePart v D p
  let message ← setSpec v D message py"parts" (.list false [part])
  appendSpec v D py"messages" definitions message

/-- `build_messages` (soapfish/py2wsdl.py:69-87) -/
def buildMessages (definitions : Val) (s : WService) : Except Exn Val :=
  foldE (fun d m => do
    let d ← addMessage v D d (m.operationName ++ py"Input") m.input
    addMessage v D d (m.operationName ++ py"Output") m.output) definitions s.methods

/-- `build_types` (soapfish/py2wsdl.py:90-92) -/
def buildTypes (definitions : Val) (s : WService) : Except Exn Val := do
  let schemas ← mapE (generateXsdspec v D) s.schemas
  let types ← mkSpec v D wTypes [(py"schemas", .list false schemas)]
  setSpec v D definitions py"types" types

/-- The description filled by `generate_wsdl` (soapfish/py2wsdl.py:95-102). -/
def generateDefinitions (s : WService) : Except Exn Val := do
  let d ← mkSpec v D wDefinitions [(py"targetNamespace", strV s.targetNamespace)]
  let d ← buildTypes v D d s
  let d ← buildService v D d s
  let d ← buildBindings v D d s
  let d ← buildPortTypes v D d s
  buildMessages v D d s

/-- `service.schemas[0]` (soapfish/py2wsdl.py:108), needed for the prefix 'sns'. -/
def firstSchema (s : WService) : Except Exn GSchema :=
  match s.schemas with
  | [] => .error .indexError
  | g :: _ => .ok g

end

/-- `generate_wsdl` (soapfish/py2wsdl.py:95-122); the namespace prefixes declared on the root element are not part of the
document model. -/
def generateWsdl (D : Nat) (s : WService) : Except Exn Xml := do
  let d ← generateDefinitions s.version D s
  let _ ← firstSchema s
  toXml (specTable s.version) D d py"definitions" (some nsWsdl) true

/-! ### Lookup -/

/-- `get_by_name` (soapfish/wsdl.py:5-10) on items and the text after the last colon. -/
def findNamed : List Val → Str → Except Exn Val
  | [], _ => .error .valueError
  | item :: items, name => do
    let n ← item.getA py"name"
    match n with
    | .atom (.str s) => if s = name then .ok item else findNamed items name
    | _ => findNamed items name

/-- `get_by_name` (soapfish/wsdl.py:5-10); the list is that of a description read from a document. -/
def getByName (items : Val) (fullname : Val) : Except Exn Val :=
  match items, fullname with
  | .list _ is, .atom (.str s) => findNamed is (lastPart ':' s)
  | .list _ _, _ => .error .attributeError
  | _, _ => .error .typeError

/-- `get_message_object` (soapfish/wsdl.py:25-32); `x` is 'input' or 'output'. -/
def getMessageObject (definitions binding operation : Val) (x : Str) : Except Exn Val := do
  let pt ← getByName (← definitions.getA py"portTypes") (← binding.getA py"type")
  let pto ← getByName (← pt.getA py"operations") (← operation.getA py"name")
  match pto.getA x with
  | .error _ => .ok Val.none
  | .ok obj =>
    if obj.isNone then .ok Val.none
    else do getByName (← definitions.getA py"messages") (← obj.getA py"message")

/-- `get_message_header` (soapfish/wsdl.py:13-22) -/
def getMessageHeader (definitions operation : Val) (x : Str) : Except Exn Val := do
  match operation.getA x with
  | .error _ => .ok Val.none
  | .ok obj =>
    if obj.isNone then .ok Val.none
    else do
      match ← obj.getA py"headers" with
      | .list _ hs => do
        let parts ← mapE (fun h => do
          let m ← getByName (← definitions.getA py"messages") (← h.getA py"message")
          getByName (← m.getA py"parts") (← h.getA py"part")) hs
        .ok (.list false parts)
      | _ => .error .typeError

end Soapfish
