import Verif.ServiceCode
import Verif.Run
import Verif.Client
/-
Importing code generated from a WSDL document: what the statements of `Verif/ServiceCode.lean` do when Python executes
them.  As in `Verif/Run.lean`, `unmodelled` stands for code whose effect is not described.
-/
namespace Soapfish

/-! ### Objects -/

/-- A header class: the schema it belongs to, and its elements. -/
structure HeaderObj where
  name : Str
  elements : List (Str × GTop)

/-- A Method (soapfish/xsd.py:1164-1184) -/
structure MethodObj where
  operationName : Str
  soapAction : Str
  input : WPart := .none
  output : WPart := .none
  function : Option Str := none
  inputPartName : Str := py"body"
  outputPartName : Str := py"body"
  inputHeader : Option HeaderObj := none
  outputHeader : Option HeaderObj := none
  style : Str := py"document"

/-- A Service (soapfish/soap.py:39-57) -/
structure ServiceObj where
  name : Str
  targetNamespace : Str
  location : Str
  schemas : List GSchema
  methods : List MethodObj
  version : Version

/-- A class derived from `soap.Stub`; for each of its methods the parameter and the name of the operation it calls. -/
structure StubObj where
  name : Str
  service : ServiceObj
  scheme : Str
  host : Str
  calls : List (Str × Str × Str)

/-- What a name of the module may stand for. -/
inductive GlobalObj where
  | cls (o : ClassObj)
  | schema (s : GSchema)
  | function
  | header (h : HeaderObj)
  | method (m : MethodObj)
  | service (s : ServiceObj)
  | stub (s : StubObj)

/-- Name bindings, the latest first. -/
abbrev Globals := List (Str × GlobalObj)

def Globals.get (g : Globals) (n : Str) : Option GlobalObj := (g.find? fun p => p.1 = n).map (·.2)

/-! ### Syntax -/

/-- The parameters of a function: names, no name twice. -/
def checkSignature (l : List Str) : Except ImportErr Unit := do
  forE checkIdent l
  if l.Nodup then .ok () else .error .syntaxError

/-- `return x` where x is a name or a constant -/
def checkReturn (s : Str) : Except ImportErr Unit :=
  if isIdent s ∨ s ∈ [py"None", py"True", py"False"] then .ok () else .error .unmodelled

/-- Text between single quotes is one literal. -/
def checkText (s : Str) : Except ImportErr Unit := do
  let _ ← literal (textValue '\'' s)
  .ok ()

def checkFunction (f : PyFunction) : Except ImportErr Unit := do
  checkIdent f.name
  checkSignature [py"request", f.parameter]
  checkReturn f.result

/-- A class as an argument -/
def checkClassArg (n : Str) : Except ImportErr Unit := if isIdent n then .ok () else .error .unmodelled

def checkParam : Option PyParam → Except ImportErr Unit
  | none => .ok ()
  | some (.element n p) => do
    checkText n
    checkText p
  | some (.cls n) => checkClassArg n

/-- Names with two leading underscores are changed in class bodies. -/
def checkMember (n : Str) : Except ImportErr Unit := if startsWith py"__" n then .error .unmodelled else checkIdent n

def checkHeader (h : PyHeader) : Except ImportErr Unit := do
  checkIdent h.name
  forE (fun p : Str × PyHeaderField => do
    checkMember p.1
    match p.2 with
    | .element n => checkText n
    | .cls _ => .error .unmodelled) h.fields

def checkMethod (m : PyMethod) : Except ImportErr Unit := do
  forE checkHeader m.headers
  checkIdent (m.name ++ py"_method")
  if m.function then checkIdent m.name else .ok ()
  checkText m.soapAction
  checkParam m.input
  checkParam m.output
  checkText m.name
  checkText (m.style.getD [])

def checkStub (name : Str) (s : PyStub) : Except ImportErr Unit := do
  checkIdent (name ++ py"ServiceStub")
  checkText s.scheme
  checkText s.host
  forE (fun c : Str × Str => do
    checkMember c.1
    checkSignature [py"self", c.2, py"header"]
    checkText c.1) s.calls

def checkPort (p : PyPort) : Except ImportErr Unit := do
  forE checkFunction p.functions
  forE checkMethod p.methods
  checkIdent (p.name ++ py"_SERVICE")
  checkText p.name
  checkText p.targetNamespace
  checkText p.location
  match p.stub with
  | some s => checkStub p.name s
  | none => .ok ()

/-! ### Execution -/

/-- `xsd.…` and `soap.…`: a function of that name has no such attributes. -/
def moduleName (g : Globals) (n : Str) : Except ImportErr Unit :=
  match g.get n with
  | none => .ok ()
  | some _ => .error (.raised .attributeError)

def defFunctions (g : Globals) : List PyFunction → Globals
  | [] => g
  | f :: l => defFunctions ((f.name, .function) :: g) l

/-- `Schema_…` as an expression -/
def schemaNamed (g : Globals) (n : Str) : Except ImportErr GSchema :=
  match g.get n with
  | some (.schema s) => .ok s
  | some _ => .error .unmodelled
  | none => .error (.raised .nameError)

/-- `SCHEMA.get_element_by_name(…)` (soapfish/xsd.py:1152-1161) of a schema without imports and includes; if there is no
such element, the class has no such field. -/
def headerElement (s : GSchema) (p : Str × PyHeaderField) : Except ImportErr (Option (Str × GTop)) := do
  match p.2 with
  | .element t =>
    let n ← literal (textValue '\'' t)
    match s.elements.find? (fun e => e.name = n) with
    | some e => .ok (some (p.1, e))
    | none => if s.imports = [] ∧ s.includes = [] then .ok none else .error .unmodelled
  | .cls _ => .error .unmodelled

/-- A header class; `BaseHeader` must not stand for a class of a schema. -/
def execHeader (g : Globals) (h : PyHeader) : Except ImportErr Globals := do
  match g.get py"BaseHeader" with
  | none => .ok ()
  | some _ => .error .unmodelled
  let s ← schemaNamed g h.schema
  let elements ← mapI (headerElement s) h.fields
  if (h.fields.map (·.1)).Nodup then .ok ((h.name, .header { name := h.name, elements := elements.filterMap id }) :: g)
  else .error .unmodelled

def execHeaders : Globals → List PyHeader → Except ImportErr Globals
  | g, [] => .ok g
  | g, h :: l => do execHeaders (← execHeader g h) l

/-- `input=…` or `output=…`: the part, and the part's name -/
def execParam (g : Globals) : Option PyParam → Except ImportErr (WPart × Str)
  | none => .ok (.none, py"body")
  | some (.element n p) => do
    let n ← literal (textValue '\'' n)
    let p ← literal (textValue '\'' p)
    .ok (.element n, p)
  | some (.cls n) => match g.get n with
    | some (.cls (.complex o)) => .ok (.cls o.name, py"body")
    | some (.cls (.simple { cls := .derived c _, .. })) => .ok (.cls c, py"body")
    | _ => .error .unmodelled

def headerNamed (g : Globals) : Option Str → Except ImportErr (Option HeaderObj)
  | none => .ok none
  | some n => match g.get n with
    | some (.header h) => .ok (some h)
    | _ => .error .unmodelled

/-- The function passed to a method -/
def functionNamed (g : Globals) (n : Str) : Except ImportErr (Option Str) :=
  match g.get n with
  | some .function => .ok (some n)
  | _ => .error .unmodelled

/-- The style, if it is passed; otherwise the default -/
def styleValue : Option Str → Except ImportErr Str
  | some s => literal (textValue '\'' s)
  | none => .ok py"document"

/-- The header classes and `…_method = xsd.Method(…)` (soapfish/xsd.py:1172-1184) -/
def execMethod (g : Globals) (m : PyMethod) : Except ImportErr Globals := do
  let g ← execHeaders g m.headers
  moduleName g py"xsd"
  let function ← (if m.function then functionNamed g m.name else .ok none)
  let soapAction ← literal (textValue '\'' m.soapAction)
  let input ← execParam g m.input
  let inputHeader ← headerNamed g m.inputHeader
  let output ← execParam g m.output
  let outputHeader ← headerNamed g m.outputHeader
  let operationName ← literal (textValue '\'' m.name)
  let style ← styleValue m.style
  .ok ((m.name ++ py"_method", .method
    { operationName := operationName, soapAction := soapAction, input := input.1, output := output.1
      function := function, inputPartName := input.2, outputPartName := output.2, inputHeader := inputHeader
      outputHeader := outputHeader, style := style }) :: g)

def execMethods : Globals → List PyMethod → Except ImportErr Globals
  | g, [] => .ok g
  | g, m :: l => do execMethods (← execMethod g m) l

/-- `…_method` as an expression -/
def methodNamed (g : Globals) (n : Str) : Except ImportErr MethodObj :=
  match g.get n with
  | some (.method m) => .ok m
  | some _ => .error .unmodelled
  | none => .error (.raised .nameError)

/-- `soap.Service(…)` (soapfish/soap.py:42-57) -/
def execService (g : Globals) (p : PyPort) : Except ImportErr ServiceObj := do
  moduleName g py"soap"
  let name ← literal (textValue '\'' p.name)
  let targetNamespace ← literal (textValue '\'' p.targetNamespace)
  let location ← literal (textValue '\'' p.location)
  let schemas ← mapI (schemaNamed g) p.schemas
  let methods ← mapI (fun m : PyMethod => methodNamed g (m.name ++ py"_method")) p.methods
  .ok { name := name, targetNamespace := targetNamespace, location := location, schemas := schemas, methods := methods
        version := p.version }

/-- Names that the class `soap.Stub` uses itself (soapfish/soap.py:83-85, 103, 140): methods of these names change the way
it works. -/
def stubClassNames : List Str := [py"SERVICE", py"SCHEME", py"HOST", py"_handle_response"]

/-- `class …ServiceStub(soap.Stub)`; a method that is defined again replaces the first. -/
def execStub (name : Str) (service : ServiceObj) (s : PyStub) : Except ImportErr StubObj := do
  if s.calls.any (fun c => c.1 ∈ stubClassNames) then .error .unmodelled else .ok ()
  let scheme ← literal (textValue '\'' s.scheme)
  let host ← literal (textValue '\'' s.host)
  let calls ← mapI (fun c : Str × Str => do
    let operation ← literal (textValue '\'' c.1)
    .ok (c.1, c.2, operation)) s.calls
  .ok { name := name ++ py"ServiceStub", service := service, scheme := scheme, host := host, calls := calls }

/-- What a port leaves behind: a service, for a client a stub, for a server functions. -/
structure PortObj where
  service : ServiceObj
  stub : Option StubObj := none

def execPort (g : Globals) (p : PyPort) : Except ImportErr (Globals × PortObj) := do
  let g := defFunctions g p.functions
  let g ← execMethods g p.methods
  let service ← execService g p
  let g := (p.name ++ py"_SERVICE", .service service) :: g
  match p.stub with
  | none => .ok (g, { service := service })
  | some s => do
    let stub ← execStub p.name service s
    .ok ((p.name ++ py"ServiceStub", .stub stub) :: g, { service := service, stub := some stub })

def execPorts : Globals → List PyPort → Except ImportErr (Globals × List PortObj)
  | g, [] => .ok (g, [])
  | g, p :: l => do
    let r ← execPort g p
    let s ← execPorts r.1 l
    .ok (s.1, r.2 :: s.2)

/-- The code of the schemas one after the other: classes, schema objects by the names of their variables. -/
def execModules (limit : Nat) : PyEnv → List (Str × GSchema) → List PyModule → Except ImportErr (PyEnv × List (Str × GSchema))
  | env, vars, [] => .ok (env, vars)
  | env, vars, m :: l => do
    let r ← execModule (vars.map fun p => (p.1, p.2.targetNamespace, none)) env limit m
    execModules limit r.1 ((m.schema.var, r.2) :: vars) l

/-- Importing a module generated from a WSDL document.  The syntax of everything is checked first. -/
def execWsdl (limit : Nat) (m : PyWsdlModule) : Except ImportErr (Globals × List PortObj) := do
  forE checkModule m.schemas
  forE checkPort m.ports
  let r ← execModules limit [] [] m.schemas
  execPorts (r.2.map (fun p => (p.1, .schema p.2)) ++ r.1.map (fun p => (p.1, .cls p.2))) m.ports

/-! ### Stubs -/

/-- Attributes of every stub object (soapfish/soap.py:87-101) -/
def stubAttributes : List Str := [py"username", py"password", py"service", py"location"]

/-- `stub.name(parameter)` for the name of an operation: the name of the operation handed to `Stub.call`
(soapfish/soap.py:125), or an exception.  Attributes of the object come first and cannot be called.  A method named `call`
takes the place of `Stub.call`, but gets two values for its parameter `header`. -/
def StubObj.invoke (s : StubObj) (name : Str) : Except Exn Str :=
  if name ∈ stubAttributes then .error .typeError
  else match s.calls.reverse.find? (fun c => c.1 = name) with
    | some c => if s.calls.any (fun c => c.1 = py"call") then .error .typeError else .ok c.2.2
    | none => .error .attributeError

/-- The location of a new stub object (soapfish/soap.py:87-101) -/
def StubObj.location (s : StubObj) : Except Exn Str := stubLocation s.service.location s.scheme s.host .none

/-- What the WSDL generator looks at. -/
def MethodObj.wsdl (m : MethodObj) : WMethod where
  operationName := m.operationName
  soapAction := some m.soapAction
  input := m.input
  output := m.output
  style := some m.style

def ServiceObj.wsdl (s : ServiceObj) : WService where
  name := s.name
  targetNamespace := s.targetNamespace
  location := some s.location
  schemas := s.schemas
  methods := s.methods.map (·.wsdl)
  version := s.version

end Soapfish
