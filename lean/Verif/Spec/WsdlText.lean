import Verif.Spec.Text
import Verif.WsdlTemplate
/-
The lines of a module generated from a WSDL document, and what names and texts must be like for that.
-/
namespace Soapfish

/-! ### Statements as lines -/

/-- `soap.…` -/
def PyExpr.soap (n : Str) : PyExpr := .attr (.name py"soap") n

def paramArgs (key partKey : Str) : Option PyParam → List (Option Str × PyExpr)
  | some (.element n part) => [(some key, .text n), (some partKey, .text part)]
  | some (.cls n) => [(some key, .name n)]
  | none => []

def optNameArg (key : Str) (o : Option Str) : List (Option Str × PyExpr) := o.toList.map fun n => (some key, .name n)
def optTextArg (key : Str) (o : Option Str) : List (Option Str × PyExpr) := o.toList.map fun s => (some key, .text s)

/-- `name_method = xsd.Method(…)` -/
def PyMethod.line (m : PyMethod) : Nat × PyLine :=
  (0, .assign (.name (m.name ++ py"_method")) (.call (.xsd py"Method") ((if m.function then [(some py"function", .name m.name)] else []) ++
    ((some py"soapAction", .text m.soapAction) :: (paramArgs py"input" py"inputPartName" m.input ++ (optNameArg py"input_header" m.inputHeader ++
      (paramArgs py"output" py"outputPartName" m.output ++ (optNameArg py"output_header" m.outputHeader ++
        ((some py"operationName", .text m.name) :: optTextArg py"style" m.style)))))))))

def PyHeaderField.value : PyHeaderField → PyExpr
  | .element e => .call (.attr (.name py"SCHEMA") py"get_element_by_name") [(none, .text e)]
  | .cls n => .call (.xsd py"Element") [(none, .call (.name n) [])]

/-- A class with the schema and the fields -/
def PyHeader.lines (h : PyHeader) : List (Nat × PyLine) :=
  (0, .block py"class" (.call (.name h.name) [(none, .name py"BaseHeader")])) :: (4, .assign (.name py"SCHEMA") (.name h.schema)) ::
    h.fields.map fun p => (4, .assign (.name p.1) p.2.value)

def PyMethod.lines (m : PyMethod) : List (Nat × PyLine) := m.headers.flatMap PyHeader.lines ++ [m.line]

/-- `def name(request, parameter):` and `return result` -/
def PyFunction.lines (f : PyFunction) : List (Nat × PyLine) :=
  [(0, .block py"def" (.call (.name f.name) [(none, .name py"request"), (none, .name f.parameter)])), (4, .ret (.name f.result))]

def Version.expr : Version → PyExpr
  | .soap11 => .attr (.soap py"SOAPVersion") py"SOAP11"
  | .soap12 => .attr (.soap py"SOAPVersion") py"SOAP12"

/-- `name_SERVICE = soap.Service(…)` -/
def PyPort.line (p : PyPort) : Nat × PyLine :=
  (0, .assign (.name (p.name ++ py"_SERVICE")) (.call (.soap py"Service") [(some py"name", .text p.name),
    (some py"targetNamespace", .text p.targetNamespace), (some py"location", .text p.location), (some py"schemas", .list (p.schemas.map .name)),
    (some py"version", p.version.expr), (some py"methods", .list (p.methods.map fun m => .name (m.name ++ py"_method")))]))

/-- `def name(self, parameter, header=None):` and `return self.call('name', parameter, header=header)` -/
def callLines (c : Str × Str) : List (Nat × PyLine) :=
  [(4, .block py"def" (.call (.name c.1) [(none, .name py"self"), (none, .name c.2), (some py"header", .const py"None")])),
    (8, .ret (.call (.attr (.name py"self") py"call") [(none, .text c.1), (none, .name c.2), (some py"header", .name py"header")]))]

def stubLines (name : Str) (s : PyStub) : List (Nat × PyLine) :=
  (0, .block py"class" (.call (.name (name ++ py"ServiceStub")) [(none, .soap py"Stub")])) ::
    (4, .assign (.name py"SERVICE") (.name (name ++ py"_SERVICE"))) :: (4, .assign (.name py"SCHEME") (.text s.scheme)) ::
    (4, .assign (.name py"HOST") (.text s.host)) :: s.calls.flatMap callLines

/-- A port: functions for a server, methods, the service, the stub for a client. -/
def PyPort.lines (p : PyPort) : List (Nat × PyLine) :=
  (if p.stub = none then p.functions.flatMap PyFunction.lines else []) ++ (p.methods.flatMap PyMethod.lines ++ (p.line ::
    (p.stub.toList.flatMap (stubLines p.name))))

/-- `from soapfish import soap, xsd` and `BaseHeader = …` -/
def preambleLines (wsa : Bool) : List (Nat × PyLine) :=
  if wsa then [(0, .imports [.name py"soapfish", .kw py"import", .name py"soap", .op ',', .name py"xsd", .op ',', .name py"wsa"]),
    (0, .assign (.name py"BaseHeader") (.attr (.name py"wsa") py"Header"))]
  else [(0, .imports [.name py"soapfish", .kw py"import", .name py"soap", .op ',', .name py"xsd"]),
    (0, .assign (.name py"BaseHeader") (.xsd py"ComplexType"))]

/-- The module: the schemas and the ports -/
def PyWsdlModule.lines (wsa : Bool) (oss : List (List Opening)) (m : PyWsdlModule) : List (Nat × PyLine) :=
  preambleLines wsa ++ ((List.zipWith PyModule.lines oss m.schemas).flatten ++ m.ports.flatMap PyPort.lines)

/-! ### Names and texts -/

def PyParam.Fits : PyParam → Prop
  | .element n part => Quotable '\'' n ∧ Quotable '\'' part
  | .cls n => Identifier n

/-- A class in the place of an element is not separated from the line before. -/
structure PyHeader.Fits (h : PyHeader) : Prop where
  name : Identifier h.name
  fields : ∀ p ∈ h.fields, Identifier p.1 ∧ ∃ e, p.2 = .element e ∧ Quotable '\'' e

structure PyMethod.Fits (m : PyMethod) : Prop where
  name : Identifier m.name
  headers : ∀ h ∈ m.headers, h.Fits
  soapAction : Quotable '\'' m.soapAction
  input : ∀ p, m.input = some p → p.Fits
  output : ∀ p, m.output = some p → p.Fits
  style : ∀ s, m.style = some s → Quotable '\'' s

/-- The parameter is not called `request`. -/
structure PyFunction.Fits (f : PyFunction) : Prop where
  name : Identifier f.name
  parameter : Identifier f.parameter
  request : f.parameter ≠ py"request"
  result : Identifier f.result

/-- Parameters are not called `self` or `header`. -/
structure PyStub.Fits (s : PyStub) : Prop where
  scheme : Quotable '\'' s.scheme
  host : Quotable '\'' s.host
  calls : ∀ c ∈ s.calls, Identifier c.1 ∧ Identifier c.2 ∧ c.2 ≠ py"self" ∧ c.2 ≠ py"header"

structure PyPort.Fits (p : PyPort) : Prop where
  functions : ∀ f ∈ p.functions, f.Fits
  methods : ∀ m ∈ p.methods, m.Fits
  name : Identifier p.name
  targetNamespace : Quotable '\'' p.targetNamespace
  location : Quotable '\'' p.location
  stub : ∀ s, p.stub = some s → s.Fits

/-- All names are identifiers, all texts can stand between their quotes, and parameters have different names. -/
structure PyWsdlModule.Fits (m : PyWsdlModule) : Prop where
  schemas : ∀ s ∈ m.schemas, s.Fits
  ports : ∀ p ∈ m.ports, p.Fits

/-- No line breaks and no null characters -/
def OneLine (s : Str) : Prop := ∀ c ∈ s, c ≠ '\n' ∧ c ≠ '\r' ∧ c ≠ Char.ofNat 0

end Soapfish
