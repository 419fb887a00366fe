import Verif.Complex
import Verif.Http
/-
SOAP 1.1 and 1.2: constants, HTTP headers, envelope classes, building and reading envelopes
(soapfish/soap11.py, soapfish/soap12.py, soapfish/namespaces.py).
-/
namespace Soapfish

/-- The modules `soap11` and `soap12` (soapfish/soap.py:17-18). -/
inductive Version where
  | soap11 | soap12
  deriving DecidableEq, Repr

/-- `ENVELOPE_NAMESPACE` (soapfish/soap11.py:5, soapfish/soap12.py:5, soapfish/namespaces.py:23-26) -/
def Version.envelopeNs : Version → Str
  | .soap11 => py"http://schemas.xmlsoap.org/soap/envelope/"
  | .soap12 => py"http://www.w3.org/2003/05/soap-envelope"

/-- `BINDING_NAMESPACE` (soapfish/soap11.py:6, soapfish/soap12.py:6, soapfish/namespaces.py:14, 30) -/
def Version.bindingNs : Version → Str
  | .soap11 => py"http://schemas.xmlsoap.org/wsdl/soap/"
  | .soap12 => py"http://schemas.xmlsoap.org/wsdl/soap12/"

/-- `CONTENT_TYPE` (soapfish/soap11.py:7, soapfish/soap12.py:7) -/
def Version.contentType : Version → Str
  | .soap11 => py"text/xml"
  | .soap12 => py"application/soap+xml"

/-- `Code.CLIENT` (soapfish/soap11.py:34, soapfish/soap12.py:34) -/
def Version.client : Version → Str
  | .soap11 => py"Client"
  | .soap12 => py"ns0:Sender"

/-- `Code.SERVER` (soapfish/soap11.py:35, soapfish/soap12.py:35) -/
def Version.server : Version → Str
  | .soap11 => py"Server"
  | .soap12 => py"ns0:Receiver"

/-- `SOAPVersion.get_version` (soapfish/soap.py:21-27) -/
def getVersion (ns : Str) : Except Exn Version :=
  if ns = Version.soap11.envelopeNs ∨ ns = Version.soap11.bindingNs then .ok .soap11
  else if ns = Version.soap12.envelopeNs ∨ ns = Version.soap12.bindingNs then .ok .soap12
  else .error .valueError

/-- `determine_soap_action` (soapfish/soap11.py:11-17, soapfish/soap12.py:11-13) -/
def Version.determineAction (v : Version) (env : Env) : Option Str :=
  match v with
  | .soap11 =>
    if truthy (env py"SOAPACTION") then (env py"SOAPACTION").map (removeChar '"')
    else if truthy (env py"ACTION") then (env py"ACTION").map (removeChar '"')
    else none
  | .soap12 =>
    let h := parseHeader ((env py"CONTENT_TYPE").getD [])
    if h.1 = v.contentType then h.2.get? py"action" else none

/-- `build_http_request_headers` (soapfish/soap11.py:20-21, soapfish/soap12.py:16-17) -/
def Version.requestHeaders (v : Version) (action : Str) : Dict Str :=
  match v with
  | .soap11 => [(py"Content-Type", v.contentType), (py"SOAPAction", action)]
  | .soap12 => [(py"Content-Type", v.contentType ++ py"; action=\"" ++ action ++ py"\"")]

/-! ### Envelope classes

The first numbers of every class table of a SOAP service belong to these classes. -/

abbrev cComplex : ClsId := 0
abbrev cNamed : ClsId := 1
abbrev cHeader : ClsId := 2
abbrev cBody : ClsId := 3
abbrev cFault : ClsId := 4
abbrev cEnvelope : ClsId := 5
abbrev cCode : ClsId := 6
abbrev cReason : ClsId := 7

/-- `SCHEMA` of the version (soapfish/soap11.py:90-94, soapfish/soap12.py:87-91) -/
def Version.schema (v : Version) : Option SchemaInfo := some ⟨some v.envelopeNs, true⟩

/-- `Fault` (soapfish/soap11.py:48-51, soapfish/soap12.py:49-52) -/
def Version.faultFields : Version → List Field
  | .soap11 => [
    { name := py"faultcode", kind := .element, type := .simple (.string {}), nspace := some [] },
    { name := py"faultstring", kind := .element, type := .simple (.string {}), nspace := some [] },
    { name := py"faultactor", kind := .element, type := .simple (.string {}), nspace := some [], required := false }]
  | .soap12 => [
    { name := py"Code", kind := .element, type := .complex cCode },
    { name := py"Reason", kind := .element, type := .complex cReason },
    { name := py"Role", kind := .element, type := .simple (.string {}), required := false }]

/-- The class table of a program using SOAP: `ComplexType`, `NamedType` (soapfish/xsd.py:1187-1193), `Header`, `Body`,
`Fault`, `Envelope` (soapfish/soap11.py:37-69, soapfish/soap12.py:28-62), `Code` and `Reason` of SOAP 1.2
(soapfish/soap12.py:32-46); all other numbers are user classes.  A program using both versions has two tables. -/
def soapTable (v : Version) (user : Table) : Table
  | 0 => { name := py"ComplexType", fields := [], mro := [cComplex] }
  | 1 => { name := py"NamedType", mro := [cNamed, cComplex], fields := [
      { name := py"name", kind := .element, type := .simple (.string {}) },
      { name := py"value", kind := .element, type := .complex cComplex }] }
  | 2 => { name := py"Header", fields := [], mro := [cHeader, cComplex], schema := v.schema, header := true }
  | 3 => { name := py"Body", mro := [cBody, cComplex], schema := v.schema, fields := [
      { name := py"message", kind := .classNamed, type := .complex cNamed, required := false },
      { name := py"Fault", kind := .element, type := .complex cFault, required := false }] }
  | 4 => { name := py"Fault", mro := [cFault, cComplex], schema := v.schema, fields := v.faultFields }
  | 5 => { name := py"Envelope", mro := [cEnvelope, cComplex], schema := v.schema, fields := [
      { name := py"Header", kind := .element, type := .complex cHeader, nillable := true },
      { name := py"Body", kind := .element, type := .complex cBody }] }
  | 6 => { name := py"Code", mro := [cCode, cComplex], schema := v.schema, fields := [
      { name := py"Value", kind := .element, type := .simple (.string {}) }] }
  | 7 => { name := py"Reason", mro := [cReason, cComplex], schema := v.schema, fields := [
      { name := py"Text", kind := .element, type := .simple .lang }] }
  | n => user n

/-- A text or None as a value. -/
def optStr : Option Str → Val
  | some s => .atom (.str s)
  | none => Val.none

/-- `getattr(v, name)` of an instance; anything else has no such attribute. -/
def Val.getA (v : Val) (name : Str) : Except Exn Val :=
  match v with
  | .inst _ fs _ => getAttr fs name
  | _ => .error .attributeError

section
variable (v : Version) (T : Table) (D : Nat)

/-- An envelope with the given header (None: not set) and body, rendered (soapfish/soap11.py:72-78, 82-88). `D` is the
recursion depth available. -/
def envelopeXml (header body : Val) : Except Exn Xml := do
  let env ← construct T D cEnvelope []
  let env ← (if header.isNone then .ok env else setAttr T (newInst T D) env py"Header" header)
  let env ← setAttr T (newInst T D) env py"Body" body
  toXml T D env py"Envelope" (some v.envelopeNs) true

/-- `Envelope.response` before serialisation (soapfish/soap11.py:70-78, soapfish/soap12.py:65-73).  The code puts the
empty Body into the envelope first and then sets its `message`. -/
def responseXml (tagname : Str) (obj header : Val) : Except Exn Xml := do
  let named ← construct T D cNamed [(py"name", .atom (.str tagname)), (py"value", obj)]
  let body ← construct T D cBody []
  let body ← setAttr T (newInst T D) body py"message" named
  envelopeXml v T D header body

/-- The Fault object of an error (soapfish/soap11.py:86, soapfish/soap12.py:81-83). -/
def buildFault (code message : Str) (actor : Option Str) : Except Exn Val :=
  match v with
  | .soap11 => construct T D cFault [(py"faultcode", .atom (.str code)), (py"faultstring", .atom (.str message)),
      (py"faultactor", optStr actor)]
  | .soap12 => do
    let code ← construct T D cCode [(py"Value", .atom (.str code))]
    let reason ← construct T D cReason [(py"Text", .atom (.str message))]
    construct T D cFault [(py"Code", code), (py"Reason", reason), (py"Role", optStr actor)]

/-- `Envelope.error_response` before serialisation (soapfish/soap11.py:80-88, soapfish/soap12.py:75-85). -/
def errorXml (code message : Str) (actor : Option Str) (header : Val) : Except Exn Xml := do
  let fault ← buildFault v T D code message actor
  let body ← construct T D cBody []
  let body ← setAttr T (newInst T D) body py"Fault" fault
  envelopeXml v T D header body

/-- `parse_fault_message` (soapfish/soap11.py:28-29, soapfish/soap12.py:24-25) -/
def faultParts (fault : Val) : Except Exn (Val × Val × Val) :=
  match v with
  | .soap11 => do
    .ok (← fault.getA py"faultcode", ← fault.getA py"faultstring", ← fault.getA py"faultactor")
  | .soap12 => do
    let code ← fault.getA py"Code"
    let code ← code.getA py"Value"
    let reason ← fault.getA py"Reason"
    let reason ← reason.getA py"Text"
    .ok (code, reason, ← fault.getA py"Role")

/-- `Envelope.parsexml` after reading the document (soapfish/xsd.py:996-1007). -/
def parseEnvelope (x : Xml) : Except Exn Val := parseCls T D D cEnvelope x

/-- `_xmlelement` of an instance that was read from a document. -/
def Val.element : Val → Except Exn Xml
  | .inst _ _ (some x) => .ok x
  | _ => .error .attributeError

/-- `Body.content` (soapfish/soap11.py:62-63): the first child node, whatever it is. -/
def bodyContent (body : Val) : Except Exn Xml := do
  let x ← body.element
  match x.kids with
  | k :: _ => .ok k
  | [] => .error .indexError

/-- `Header.parse_as` (soapfish/soap11.py:42-43) -/
def headerParseAs (c : ClsId) (header : Val) : Except Exn Val := do
  let x ← header.element
  parseCls T D D c x

/-- `Body.parse_as` (soapfish/soap11.py:59-60) -/
def bodyParseAs (c : ClsId) (body : Val) : Except Exn Val := do
  let x ← bodyContent body
  parseCls T D D c x

end

end Soapfish
