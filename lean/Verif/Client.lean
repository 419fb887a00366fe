import Verif.Dispatch
/-
The client (soapfish/soap.py:80-140).  Sending the request (`requests.post`) is a function given from outside.
-/
namespace Soapfish

/-- The `location` argument of a stub. -/
inductive Location where
  | none
  | callable (f : Str → Dict Str → Except Exn Str)
  | str (s : Str)
  | other

/-- The location computed by the constructor (soapfish/soap.py:92-101); `template` is `service.location`, `scheme` and
`host` are the class attributes `SCHEME` and `HOST`. -/
def stubLocation (template scheme host : Str) (location : Location) : Except Exn Str :=
  let context := [(py"scheme", scheme), (py"host", host)]
  match location with
  | .none => .ok (safeSubstitute context template)
  | .callable f => f template context
  | .str s => .ok s
  | .other => .error .typeError

/-- What a call raises: SOAPError with the parts of a fault (which may be None), or another exception. -/
inductive CallError where
  | fault (code message actor : Val)
  | other (e : Exn)

/-- An exception that is not the server's fault. -/
def raised {α : Type} (x : Except Exn α) : Except CallError α :=
  match x with
  | .ok a => .ok a
  | .error e => .error (.other e)

/-- `parameter.__class__.__name__` -/
def Val.className (T : Table) : Val → Str
  | .inst c _ _ => (T c).name
  | .atom .none => py"NoneType"
  | _ => py"object"

section
variable (W : World) (S : Service)

/-- The tag name of a request (soapfish/soap.py:128). -/
def callTag (m : Method) (param : Val) : Except Exn Str :=
  match m.input with
  | .name n => .ok n
  | _ => uncapitalize (param.className (W.table S))

/-- The document sent for a call (soapfish/soap.py:128-131), before serialisation. -/
def callDoc (m : Method) (param header : Val) : Except Exn Xml := do
  let tag ← callTag W S m param
  responseXml S.version (W.table S) W.depth tag param header

/-- The header object of an answer (soapfish/soap.py:107-110). -/
def answerHeader (m : Method) (header : Val) : Except Exn Val :=
  match m.outputHeader with
  | none => .ok Val.none
  | some c => if header.isNone then .ok Val.none else headerParseAs (W.table S) W.depth c header

/-- `find_element_by_name(name)._type.__class__`, then `parse_xmlelement` of that class, which only works for complex
types (soapfish/soap.py:117-122). -/
def answerBody (m : Method) (body : Val) : Except Exn Val :=
  match m.output with
  | .name n => do
    let e ← S.findElement W n
    let e ← optE .attributeError e
    match e.type with
    | .complex c => bodyParseAs (W.table S) W.depth c body
    | _ => .error .typeError
  | .cls c => bodyParseAs (W.table S) W.depth c body
  | .none => .error .attributeError

/-- The part of `_handle_response` after parsing (soapfish/soap.py:107-124). -/
def readAnswer (m : Method) (env : Val) : Except CallError Response := do
  let h ← raised (env.getA py"Header")
  let h ← raised (answerHeader W S m h)
  let body ← raised (env.getA py"Body")
  let fault ← raised (body.getA py"Fault")
  if fault.isNone then do
    let v ← raised (answerBody W S m body)
    .ok (mkResponse (.val v) h)
  else do
    let (code, message, actor) ← raised (faultParts S.version fault)
    .error (.fault code message actor)

/-- `_handle_response` (soapfish/soap.py:103-124) -/
def handleResponse (m : Method) (content : Bytes) : Except CallError Response :=
  match W.read content with
  | none => .error (.other .xmlSyntaxError)
  | some x => do
    let env ← raised (parseEnvelope (W.table S) W.depth x)
    readAnswer W S m env

/-- `Stub.call` (soapfish/soap.py:126-140); `post` sends headers and content and gives the content of the answer. -/
def stubCall (post : Dict Str → Bytes → Except Exn Bytes) (op : Str) (param header : Val) :
    Except CallError Response := do
  let m ← raised (S.getMethod W op)
  let doc ← raised (callDoc W S (W.method m) param header)
  let content ← raised (post (S.version.requestHeaders (W.method m).soapAction) (W.write doc))
  handleResponse W S (W.method m) content

end

end Soapfish
