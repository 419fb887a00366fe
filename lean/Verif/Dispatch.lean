import Verif.Soap
/-
Services and the dispatcher (soapfish/core.py, soapfish/soap.py, soapfish/soap_dispatch.py, soapfish/middlewares.py).

User code (methods, middlewares, hooks) is an arbitrary `Prog`: a program that reads and writes request objects,
creates new ones, calls the next middleware any number of times and inspects the outcome, logs, and finally returns or
raises.  Request objects are mutable and shared, so they live in a store; responses are plain values (a response object
shared between requests is not modelled).  Programs that never end are not modelled.
-/
namespace Soapfish

abbrev ReqId := Nat
abbrev MethodId := Nat
abbrev DispId := Nat
abbrev SchemaId := Nat

/-- What can be the body of a response: a value, or a SOAPError object (soapfish/core.py:6-11). -/
inductive Obj where
  | val (v : Val)
  | error (code message : Str) (actor : Option Str)

/-- `http_content`: None, text or bytes. -/
inductive Content where
  | none
  | str (s : Str)
  | bytes (b : Bytes)
  deriving DecidableEq, Repr

/-- A SOAPResponse object. -/
structure Response where
  soapHeader : Val
  soapBody : Obj
  status : Nat
  httpHeaders : Dict Str
  content : Content

/-- `SOAPResponse(...)` (soapfish/core.py:18-23): the status code argument is not used. -/
def mkResponse (body : Obj) (header : Val := Val.none) (_status : Nat := 200) (content : Content := .none)
    (headers : Dict Str := []) : Response :=
  { soapHeader := header, soapBody := body, status := 200, httpHeaders := headers, content := content }

/-- A SOAPRequest object (soapfish/core.py:31-38).  `method` and `dispatcher` refer to objects by number. -/
structure Req where
  environ : Env
  content : Bytes
  soapHeader : Val := Val.none
  soapBody : Val := Val.none
  dispatcher : Option DispId := none
  method : Option MethodId := none

/-- What a method or middleware returns: a SOAPResponse or something else. -/
inductive Ret where
  | response (r : Response)
  | obj (o : Obj)

/-- What a hook returns: a request, a response, or something else. -/
inductive HookRet where
  | request (r : ReqId)
  | response (r : Response)
  | other

/-- User code.  `next` is only available to middlewares (`ν = Unit`), not to methods and hooks (`ν = Empty`). -/
inductive Prog (ν α : Type) where
  | ret (a : α)
  | raise (e : Exn)
  | get (r : ReqId) (k : Req → Prog ν α)
  | set (r : ReqId) (q : Req) (k : Prog ν α)
  | new (q : Req) (k : ReqId → Prog ν α)
  | log (e : Exn) (k : Prog ν α)
  | next (t : ν) (r : ReqId) (k : Except Exn Ret → Prog ν α)

abbrev Middleware := ReqId → Prog Unit Ret

/-- A hook gets the dispatcher, the request and, if it is a response hook, the response. -/
abbrev Hook := ReqId → Option Response → Prog Empty HookRet

/-- `input` and `output` of a method: missing, the name of a schema element, or a class. -/
inductive Part where
  | none
  | name (s : Str)
  | cls (c : ClsId)
  deriving DecidableEq

/-- A Method object (soapfish/xsd.py:1164-1184). -/
structure Method where
  operationName : Str
  soapAction : Str
  input : Part := .none
  output : Part := .none
  inputHeader : Option ClsId := none
  outputHeader : Option ClsId := none
  function : Option (ReqId → Val → Prog Empty Ret) := none

/-- An element of a schema: its evaluated type and substitution group (soapfish/xsd.py:546-570). -/
structure SElem where
  type : FType
  substitutionGroup : Option Str := none

/-- A Schema object (soapfish/xsd.py:1093-1140). -/
structure Schema where
  targetNamespace : Str
  qualified : Bool := false
  elements : Dict SElem := []
  imports : List SchemaId := []
  includes : List SchemaId := []
  location : Option Str := none

/-- A Service object (soapfish/soap.py:42-58). -/
structure Service where
  schemas : List SchemaId
  methods : List MethodId
  version : Version := .soap11
  location : Str := []
  inputHeader : Option ClsId := none
  outputHeader : Option ClsId := none

/-- A SOAPDispatcher object (soapfish/soap_dispatch.py:25-53).  `validator` is `py2xsd.schema_validator(...)`. -/
structure Dispatcher where
  service : Service
  middlewares : List Middleware := []
  hooks : Dict Hook := []
  wsdl : Bytes := []
  xsds : List (Option Str × Bytes) := []
  strict : Bool := true
  validator : Xml → Except Exn Unit

/-- Everything a running program consists of: user classes, method, schema and dispatcher objects, and the library
functions that are not modelled: reading and writing XML, UTF-8, XSD validation of WS-Addressing headers, the text
`f'{e.__class__.__name__}: {e}'` of an exception and `traceback.format_exc()`. `depth` is the recursion limit. -/
structure World where
  user : Table
  depth : Nat
  method : MethodId → Method
  schema : SchemaId → Schema
  disp : DispId → Dispatcher
  read : Bytes → Option Xml
  write : Xml → Bytes
  encode : Str → Bytes
  decode : Bytes → Except Exn Str
  wsaValid : Xml → Except Exn Unit
  describe : Exn → Str
  traceback : Exn → Str

/-- What an observer sees happening. `method` records the request object as it is at the time of the call and the
parameter. -/
inductive Event where
  | method (m : MethodId) (r : ReqId) (q : Req) (param : Val)
  | hook (name : Str)
  | log (e : Exn)

structure State where
  reqs : List Req := []
  trace : List Event := []

/-- Computations that change the state and may raise; changes made before an exception stay. -/
def M (α : Type) := State → Except Exn α × State

def M.pure {α} (a : α) : M α := fun s => (.ok a, s)
def M.bind {α β} (m : M α) (f : α → M β) : M β := fun s =>
  match m s with
  | (.ok a, s') => f a s'
  | (.error e, s') => (.error e, s')

instance : Monad M where
  pure := M.pure
  bind := M.bind

def M.throw {α} (e : Exn) : M α := fun s => (.error e, s)

/-- A computation without effects. -/
def M.lift {α} (x : Except Exn α) : M α := fun s => (x, s)

/-- The outcome as a value. -/
def M.outcome {α} (m : M α) : M (Except Exn α) := fun s => (.ok (m s).1, (m s).2)

def getReq (r : ReqId) : M Req := fun s =>
  match s.reqs[r]? with
  | some q => (.ok q, s)
  | none => (.error .attributeError, s)

def setReq (r : ReqId) (q : Req) : M Unit := fun s => (.ok (), { s with reqs := s.reqs.set r q })

def newReq (q : Req) : M ReqId := fun s => (.ok s.reqs.length, { s with reqs := s.reqs ++ [q] })

def emit (e : Event) : M Unit := fun s => (.ok (), { s with trace := s.trace ++ [e] })

/-- Run user code; `nx` is what `next_call` does. -/
def Prog.run {ν α : Type} (nx : ν → ReqId → M Ret) : Prog ν α → M α
  | .ret a => M.pure a
  | .raise e => M.throw e
  | .get r k => M.bind (getReq r) fun q => (k q).run nx
  | .set r q k => M.bind (setReq r q) fun _ => k.run nx
  | .new q k => M.bind (newReq q) fun r => (k r).run nx
  | .log e k => M.bind (emit (.log e)) fun _ => k.run nx
  | .next t r k => M.bind (M.outcome (nx t r)) fun o => (k o).run nx

/-- User code that cannot call `next`. -/
def Prog.run' {α : Type} (p : Prog Empty α) : M α := p.run (fun t _ => nomatch t)

def optE {α} (e : Exn) : Option α → Except Exn α
  | some a => .ok a
  | none => .error e

/-! ### Schemas and services -/

/-- First result that is not None of a loop whose steps may raise. -/
def firstE {α β} (f : α → Except Exn (Option β)) : List α → Except Exn (Option β)
  | [] => .ok none
  | a :: as => do
    match ← f a with
    | some b => .ok (some b)
    | none => firstE f as

section
variable (W : World)

/-- `Schema.get_element_by_name` (soapfish/xsd.py:1149-1158); the number is the recursion depth left. -/
def elementByName (name : Str) : Nat → SchemaId → Except Exn (Option SElem)
  | 0, _ => .error .recursionError
  | n + 1, s =>
    match (W.schema s).elements.get? name with
    | some e => .ok (some e)
    | none => firstE (elementByName name n) ((W.schema s).imports ++ (W.schema s).includes)

/-- `Service.find_element_by_name` (soapfish/soap.py:63-69) -/
def Service.findElement (S : Service) (name : Str) : Except Exn (Option SElem) :=
  firstE (elementByName W name W.depth) S.schemas

/-- `Service.get_method` (soapfish/soap.py:60-61) -/
def Service.getMethod (S : Service) (op : Str) : Except Exn MethodId :=
  optE .stopIteration (S.methods.find? fun m => (W.method m).operationName = op)

/-- The class table of a service. -/
def World.table (S : Service) : Table := soapTable S.version W.user

/-! ### Preparing a request (soapfish/soap_dispatch.py:61-164) -/

/-- `_parse_soap_content` (soapfish/soap_dispatch.py:61-76) -/
def parseSoapContent (S : Service) (content : Bytes) : Except Exn Val :=
  match W.read content with
  | none => .error (.soapError S.version.client (W.describe .xmlSyntaxError) none)
  | some x => do
    let env ← parseEnvelope (W.table S) W.depth x
    let body ← env.getA py"Body"
    if body.isNone then .error (.soapError S.version.client py"Missing SOAP body" none)
    else .ok env

/-- `etree.QName(body.tag).localname`: comments and processing instructions have no tag name. -/
def rootTag : Xml → Except Exn Str
  | .elem q _ _ _ => .ok q.loc
  | _ => .error .valueError

/-- First element with a name among the elements declared by the service's own schemas
(soapfish/soap_dispatch.py:100). -/
def ownElement (S : Service) (name : Str) : Option SElem :=
  S.schemas.findSome? fun s => (W.schema s).elements.get? name

/-- The method whose input is a name. -/
def byInput (S : Service) (name : Str) : Option MethodId :=
  S.methods.find? fun m => (W.method m).input = .name name

/-- `m.input == e.substitutionGroup.split(':')[-1]` for the first method for which it holds
(soapfish/soap_dispatch.py:101): without any method nothing is evaluated, None has no `split`. -/
def bySubstitution (S : Service) (e : SElem) (err : Exn) : Except Exn MethodId :=
  match S.methods, e.substitutionGroup with
  | [], _ => .error err
  | _ :: _, none => .error .attributeError
  | _ :: _, some g => optE err (byInput W S (lastPart ':' g))

/-- `_find_handler_for_request` (soapfish/soap_dispatch.py:78-103) -/
def findHandler (S : Service) (env : Env) (body : Xml) : Except Exn MethodId := do
  let root ← rootTag body
  let action := S.version.determineAction env
  if truthy action then
    optE (.soapError S.version.client (py"Invalid SOAP action: " ++ action.getD []) none)
      (S.methods.find? fun m => some (W.method m).soapAction = action)
  else
    match byInput W S root with
    | some m => .ok m
    | none =>
      let err := Exn.soapError S.version.client (py"Missing SOAP action and invalid root tag: " ++ root) none
      match ownElement W S root with
      | some e => bySubstitution W S e err
      | none => .error err

/-- `_parse_header` (soapfish/soap_dispatch.py:105-112) -/
def parseHeaderPart (S : Service) (m : Method) (header : Val) : Except Exn Val :=
  if header.isNone then .ok Val.none
  else match m.inputHeader, S.inputHeader with
    | some c, _ => headerParseAs (W.table S) W.depth c header
    | none, some c => headerParseAs (W.table S) W.depth c header
    | none, none => .ok Val.none

/-- `_parse_input` (soapfish/soap_dispatch.py:114-119) -/
def parseInput (S : Service) (m : Method) (x : Xml) : Except Exn Val :=
  match m.input with
  | .name n => do
    let e ← S.findElement W n
    let e ← optE .attributeError e
    parseType (parseCls (W.table S) W.depth W.depth) e.type x
  | .cls c => parseCls (W.table S) W.depth W.depth c x
  | .none => .error .attributeError

/-- `wsa.NAMESPACE` (soapfish/namespaces.py:33) -/
def nsWsa : Str := py"http://www.w3.org/2005/08/addressing"

/-- Validation errors proper, as opposed to other exceptions. -/
def Exn.isInvalid : Exn → Bool
  | .documentInvalid | .xmlSyntaxError => true
  | _ => false

/-- Swallow validation errors unless strict (soapfish/soap_dispatch.py:137-141). -/
def unlessStrict (strict : Bool) (r : Except Exn Unit) : Except Exn Unit :=
  match r with
  | .ok () => .ok ()
  | .error e => if e.isInvalid ∧ strict = false then .ok () else .error e

/-- One child of the header (soapfish/soap_dispatch.py:132-141).  lxml refuses to validate comments and processing
instructions (ValueError). -/
def validateHeaderChild (d : Dispatcher) : Xml → Except Exn Unit
  | .elem q a t k =>
    if q.ns = some nsWsa then W.wsaValid (.elem q a t k)
    else unlessStrict d.strict (d.validator (.elem q a t k))
  | _ => .error .valueError

/-- Validate all children of the header in order, up to the first exception. -/
def eachE {α} (f : α → Except Exn Unit) : List α → Except Exn Unit
  | [] => .ok ()
  | a :: as => do
    f a
    eachE f as

/-- `_validate_header` (soapfish/soap_dispatch.py:129-141) -/
def validateHeader (d : Dispatcher) (header : Val) : Except Exn Unit :=
  if header.isNone then .ok ()
  else do
    let x ← header.element
    eachE (validateHeaderChild W d) x.kids

/-- lxml refuses to validate comments and processing instructions (ValueError). -/
def validateElement (validator : Xml → Except Exn Unit) : Xml → Except Exn Unit
  | .elem q a t k => validator (.elem q a t k)
  | _ => .error .valueError

/-- `_validate_input` (soapfish/soap_dispatch.py:143-148) -/
def validateInput (d : Dispatcher) (env : Val) : Except Exn Unit := do
  let header ← env.getA py"Header"
  validateHeader W d header
  let body ← env.getA py"Body"
  let x ← bodyContent body
  validateElement d.validator x

/-- `DocumentInvalid` and `XMLSyntaxError` become Client faults (soapfish/soap_dispatch.py:157-160). -/
def asClientFault (v : Version) (r : Except Exn Unit) : Except Exn Unit :=
  match r with
  | .ok () => .ok ()
  | .error e => if e.isInvalid then .error (.soapError v.client (W.describe e) none) else .error e

/-- The part of `_prepare_request` before the request is changed (soapfish/soap_dispatch.py:150-160): header and body
content. -/
def readAndValidate (d : Dispatcher) (content : Bytes) : Except Exn (Val × Xml) := do
  let env ← parseSoapContent W d.service content
  let header ← env.getA py"Header"
  let body ← env.getA py"Body"
  let x ← bodyContent body
  asClientFault W d.service.version (validateInput W d env)
  .ok (header, x)

/-- `_prepare_request` (soapfish/soap_dispatch.py:150-164) -/
def prepareRequest (d : Dispatcher) (r : ReqId) : M Unit := do
  let q ← getReq r
  let (header, x) ← M.lift (readAndValidate W d q.content)
  let m ← M.lift (findHandler W d.service q.environ x)
  setReq r { q with method := some m }
  let h ← M.lift (parseHeaderPart W d.service (W.method m) header)
  setReq r { q with method := some m, soapHeader := h }
  let b ← M.lift (parseInput W d.service (W.method m) x)
  setReq r { q with method := some m, soapHeader := h, soapBody := b }

/-- `response if isinstance(response, SOAPResponse) else SOAPResponse(response)` -/
def Ret.toResponse : Ret → Response
  | .response r => r
  | .obj o => mkResponse o

/-- `call_method` (soapfish/soap_dispatch.py:18-21).  Calling a missing function is a TypeError. -/
def callMethod (r : ReqId) : M Ret := do
  let q ← getReq r
  let d ← M.lift (optE .attributeError q.dispatcher)
  prepareRequest W (W.disp d) r
  let q ← getReq r
  let m ← M.lift (optE .attributeError q.method)
  let f ← M.lift (optE .typeError (W.method m).function)
  emit (.method m r q q.soapBody)
  let ret ← (f r q.soapBody).run'
  M.pure (.response ret.toResponse)

/-- `middleware(i)` for the list from `i` on (soapfish/soap_dispatch.py:55-59). -/
def chain : List Middleware → ReqId → M Ret
  | [], r => callMethod W r
  | m :: ms, r => (m r).run (fun _ r' => chain ms r')

/-! ### Dispatching -/

/-- `_call_hook` (soapfish/soap_dispatch.py:239-246) for a request hook. -/
def callRequestHook (d : Dispatcher) (name : Str) (r : ReqId) : M ReqId := do
  let obj ← (match d.hooks.get? name with
    | some h => M.bind (emit (.hook name)) fun _ => (h r none).run'
    | none => M.pure (.request r))
  match obj with
  | .request r => M.pure r
  | _ => M.throw .typeError

/-- `_call_hook` (soapfish/soap_dispatch.py:239-246) for a response hook. -/
def callResponseHook (d : Dispatcher) (name : Str) (r : ReqId) (resp : Response) : M Response := do
  let obj ← (match d.hooks.get? name with
    | some h => M.bind (emit (.hook name)) fun _ => (h r (some resp)).run'
    | none => M.pure (.response resp))
  match obj with
  | .response resp => M.pure resp
  | _ => M.throw .typeError

/-- The names accepted for hooks: `re.match` without `$` looks at the beginning only
(soapfish/soap_dispatch.py:35). -/
def hookNames : List Str :=
  [py"soap-request", py"soap-response", py"wsdl-request", py"wsdl-response", py"xsd-request", py"xsd-response"]

/-- The check of hook names in the constructor (soapfish/soap_dispatch.py:32-36). -/
def checkHooks (names : List Str) : Except Exn Unit :=
  if names.all fun n => hookNames.any fun p => startsWith p n then .ok () else .error .keyError

/-- `except SOAPError` around the middlewares (soapfish/soap_dispatch.py:185-191). -/
def catchSoapError (o : Except Exn Ret) : Except Exn Response :=
  match o with
  | .ok ret => .ok ret.toResponse
  | .error (.soapError c m a) => .ok (mkResponse (.error c m a))
  | .error e => .error e

/-- Tag name of an answer (soapfish/soap_dispatch.py:203-206): a response object has no attribute `content`. -/
def answerTag (m : Option MethodId) : Except Exn Str :=
  match m with
  | none => .error .attributeError
  | some m =>
    match (W.method m).output with
    | .name n => .ok n
    | _ => .error .attributeError

/-- The value of a body that is not an error. -/
def Obj.value : Obj → Val
  | .val v => v
  | .error _ _ _ => .atom (.other 2)

/-- Content and status of an answer (soapfish/soap_dispatch.py:193-207). -/
def finishResponse (d : Dispatcher) (m : Option MethodId) (resp : Response) : Except Exn Response :=
  let S := d.service
  let resp := { resp with httpHeaders := Dict.set resp.httpHeaders py"Content-Type" S.version.contentType }
  match resp.soapBody with
  | .error code message _ => do
    let x ← errorXml S.version (W.table S) W.depth code message none resp.soapHeader
    .ok { resp with content := .bytes (W.write x), status := 500 }
  | .val v => do
    let tag ← answerTag W m
    let x ← responseXml S.version (W.table S) W.depth tag v resp.soapHeader
    .ok { resp with content := .bytes (W.write x) }

/-- `handle_soap_request` (soapfish/soap_dispatch.py:180-209) -/
def handleSoap (d : DispId) (r : ReqId) : M Response := do
  let r ← callRequestHook (W.disp d) py"soap-request" r
  let q ← getReq r
  setReq r { q with dispatcher := some d }
  let o ← M.outcome (chain W (W.disp d).middlewares r)
  let resp ← M.lift (catchSoapError o)
  let q ← getReq r
  let resp ← M.lift (finishResponse W (W.disp d) q.method resp)
  callResponseHook (W.disp d) py"soap-response" r resp

/-- The stored WSDL with scheme and host filled in (soapfish/soap_dispatch.py:213-217). -/
def wsdlFor (d : Dispatcher) (env : Env) : Except Exn Bytes :=
  let scheme := (env py"X_FORWARDED_PROTO").getD ((env py"wsgi.url_scheme").getD py"http")
  let host := env py"HTTP_HOST"
  if scheme ≠ [] ∧ truthy host then do
    let text ← W.decode d.wsdl
    .ok (W.encode (safeSubstitute [(py"scheme", scheme), (py"host", host.getD [])] text))
  else .ok d.wsdl

/-- `handle_wsdl_request` (soapfish/soap_dispatch.py:211-219) -/
def handleWsdl (d : DispId) (r : ReqId) : M Response := do
  let r ← callRequestHook (W.disp d) py"wsdl-request" r
  let q ← getReq r
  let wsdl ← M.lift (wsdlFor W (W.disp d) q.environ)
  callResponseHook (W.disp d) py"wsdl-response" r
    (mkResponse (.val (.atom (.str py"wsdl"))) (content := .bytes wsdl) (headers := [(py"Content-Type", py"text/xml")]))

/-- `self.xsds[name]` -/
def xsdLookup (xsds : List (Option Str × Bytes)) (name : Str) : Option Bytes :=
  match xsds with
  | [] => none
  | (k, v) :: r => if k = some name then some v else xsdLookup r name

/-- The answer to an XSD request (soapfish/soap_dispatch.py:223-231). -/
def xsdAnswer (d : Dispatcher) (env : Env) : Response :=
  let found := match (parseQs ((env py"QUERY_STRING").getD [])).get? py"xsd" with
    | some (n :: _) => xsdLookup d.xsds (if n = [] then py"xsd" else n)
    | _ => none
  match found with
  | some x => mkResponse (.val (.atom (.str py"xsd"))) (content := .bytes x)
      (headers := [(py"Content-Type", py"text/xml")])
  | none => mkResponse (.val (.atom (.str py"not found"))) (_status := 404) (content := .str py"not_found")
      (headers := [(py"Content-Type", py"text/plain")])

/-- `handle_xsd_request` (soapfish/soap_dispatch.py:221-233) -/
def handleXsd (d : DispId) (r : ReqId) : M Response := do
  let r ← callRequestHook (W.disp d) py"xsd-request" r
  let q ← getReq r
  callResponseHook (W.disp d) py"wsdl-response" r (xsdAnswer (W.disp d) q.environ)

/-- The answer to everything else (soapfish/soap_dispatch.py:177-178). -/
def badRequest : Response :=
  mkResponse (.val (.atom (.str py"bad request"))) (_status := 400) (content := .str py"bad_request")
    (headers := [(py"Content-Type", py"text/plain")])

/-- `dispatch` (soapfish/soap_dispatch.py:166-178) -/
def dispatch (d : DispId) (r : ReqId) : M Response := do
  let q ← getReq r
  let method := (q.environ py"REQUEST_METHOD").getD []
  let qs := parseQs ((q.environ py"QUERY_STRING").getD [])
  if method = py"GET" ∧ (py"wsdl" ∈ qs.keys ∨ py"singleWsdl" ∈ qs.keys) then handleWsdl W d r
  else if method = py"GET" ∧ py"xsd" ∈ qs.keys then handleXsd W d r
  else if method = py"POST" then handleSoap W d r
  else M.pure badRequest

/-! ### The middlewares that come with the library (soapfish/middlewares.py) -/

/-- `ExceptionToSoapFault` (soapfish/middlewares.py:7-21) -/
def exceptionToSoapFault (traceback : Bool) : Middleware := fun r =>
  .next () r fun
    | .ok v => .ret v
    | .error (.soapError c m a) => .ret (.obj (.error c m a))
    | .error e => .get r fun q =>
      match q.dispatcher with
      | some d => .ret (.obj (.error (W.disp d).service.version.server
          (if traceback then W.traceback e else W.describe e) none))
      | none => .raise .attributeError

/-- `ExceptionLogger` (soapfish/middlewares.py:24-40); `classes` decides which exceptions are instances of the configured
classes. -/
def exceptionLogger (classes : Exn → Bool) : Middleware := fun r =>
  .next () r fun
    | .ok v => .ret v
    | .error e => if classes e then .log e (.raise e) else .raise e

end

end Soapfish
