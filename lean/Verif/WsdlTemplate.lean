import Verif.Template
import Verif.ServiceCode
/-
The text of the code generated from a WSDL document (soapfish/templates/wsdl.jinja2, soapfish/templates/lib.jinja2:1-12), character by
character, made from the statements of `Verif/ServiceCode.lean`.  The schemas are as in `Verif/Template.lean`.
-/
namespace Soapfish

/-- The line of `#` signs -/
def banner : Str := py"##############################################################################\n"

/-- `input=…,` or `output=…,` (soapfish/templates/wsdl.jinja2:75-82, 86-93); a class is put on the line before. -/
def paramText (key partKey : Str) : Option PyParam → Str
  | some (.element n part) => py"\n    " ++ (key ++ (py"=" ++ (quoted n ++ (py",\n    " ++ (partKey ++ (py"=" ++ (quoted part ++ py",")))))))
  | some (.cls n) => key ++ (py"=" ++ (n ++ py","))
  | none => []

/-- A field of a header class (soapfish/templates/wsdl.jinja2:50-56, 62-68); after `{%- else -%}` there is no newline. -/
def headerFieldText (p : Str × PyHeaderField) : Str :=
  match p.2 with
  | .element e => py"\n    " ++ (p.1 ++ (py" = SCHEMA.get_element_by_name(" ++ (quoted e ++ py")")))
  | .cls n => p.1 ++ (py" = xsd.Element(" ++ (n ++ py"())"))

/-- A header class (soapfish/templates/wsdl.jinja2:47-58, 59-70) -/
def PyHeader.text (h : PyHeader) : Str :=
  py"\nclass " ++ (h.name ++ (py"(BaseHeader):\n    SCHEMA = " ++ (h.schema ++ (h.fields.flatMap headerFieldText ++ py"\n"))))

/-- An argument with a name or expression as its value, on a line of its own -/
def keyText (key value : Str) : Str := py"\n    " ++ (key ++ (py"=" ++ (value ++ py",")))

/-- An argument that may be left out -/
def optKeyText (key : Str) : Option Str → Str
  | some v => keyText key v
  | none => []

/-- The arguments of `xsd.Method` (soapfish/templates/wsdl.jinja2:72-101) -/
def PyMethod.argsText (m : PyMethod) : Str :=
  (if m.function then keyText py"function" m.name else []) ++ (keyText py"soapAction" (quoted m.soapAction) ++
    (paramText py"input" py"inputPartName" m.input ++ (optKeyText py"input_header" m.inputHeader ++
      (paramText py"output" py"outputPartName" m.output ++ (optKeyText py"output_header" m.outputHeader ++
        (keyText py"operationName" (quoted m.name) ++ optKeyText py"style" (m.style.map quoted)))))))

/-- The header classes and the method (soapfish/templates/wsdl.jinja2:42-104) -/
def PyMethod.text (m : PyMethod) : Str :=
  m.headers.flatMap PyHeader.text ++ (py"\n" ++ (m.name ++ (py"_method = xsd.Method(" ++ (m.argsText ++ py"\n)\n\n"))))

/-- A function of a server (soapfish/templates/wsdl.jinja2:31-35) -/
def PyFunction.text (f : PyFunction) : Str :=
  py"\n\ndef " ++ (f.name ++ (py"(request, " ++ (f.parameter ++ (py"):\n    # TODO: Put your implementation here.\n    return " ++ (f.result ++ py"\n\n")))))

/-- `soap_version` (soapfish/templates/wsdl.jinja2:114-118) -/
def versionText : Version → Str
  | .soap11 => py"soap.SOAPVersion.SOAP11"
  | .soap12 => py"soap.SOAPVersion.SOAP12"

/-- The arguments of `soap.Service` (soapfish/templates/wsdl.jinja2:109-120) -/
def PyPort.argsText (p : PyPort) : Str :=
  keyText py"name" (quoted p.name) ++ (keyText py"targetNamespace" (quoted p.targetNamespace) ++ (keyText py"location" (quoted p.location) ++
    (keyText py"schemas" (py"[" ++ (commaSep p.schemas ++ py"]")) ++ (keyText py"version" (versionText p.version) ++
      keyText py"methods" (py"[" ++ (commaSep (p.methods.map fun m => m.name ++ py"_method") ++ py"]"))))))

/-- A method of the stub (soapfish/templates/wsdl.jinja2:146-148) -/
def callText (c : Str × Str) : Str :=
  py"\n    def " ++ (c.1 ++ (py"(self, " ++ (c.2 ++ (py", header=None):\n        return self.call(" ++ (quoted c.1 ++ (py", " ++ (c.2 ++
    py", header=header)\n")))))))

/-- The stub (soapfish/templates/wsdl.jinja2:137-149) -/
def stubText (name : Str) (s : PyStub) : Str :=
  py"\n" ++ (banner ++ (py"# SOAP Service Stub\n\n\nclass " ++ (name ++ (py"ServiceStub(soap.Stub):\n    SERVICE = " ++ (name ++
    (py"_SERVICE\n    SCHEME = " ++ (quoted s.scheme ++ (py"\n    HOST = " ++ (quoted s.host ++ (py"\n" ++ s.calls.flatMap callText))))))))))

/-- The comment about dispatching (soapfish/templates/wsdl.jinja2:123-135) -/
def dispatchText (name regex : Str) : Str :=
  py"\n" ++ (banner ++ (py"\n\n# NOTE: Uncomment the following lines to turn on dispatching for Django:\n# from soapfish.django_ import django_dispatcher\n# dispatcher = django_dispatcher(" ++
    (name ++ (py"_SERVICE)\n\n\n# NOTE: Put these lines in the urls.py for your project or application:\n# urlpatterns += patterns('',\n#     (r'" ++
      (regex ++ py"', '<module>.dispatcher'),\n# )")))))

/-- The functions of a server (soapfish/templates/wsdl.jinja2:23-37) -/
def functionsText (p : PyPort) : Str :=
  match p.stub with
  | none => py"\n" ++ (banner ++ (py"# Operations\n" ++ p.functions.flatMap PyFunction.text))
  | some _ => []

/-- The code for a port (soapfish/templates/wsdl.jinja2:17-151) -/
def PyPort.text (regex : Str) (p : PyPort) : Str :=
  functionsText p ++ (py"\n" ++ (banner ++ (py"# Methods\n\n" ++ (p.methods.flatMap PyMethod.text ++ (py"\n" ++ (banner ++
    (py"# SOAP Service\n\n\n" ++ (p.name ++ (py"_SERVICE = soap.Service(" ++ (p.argsText ++ (py"\n)\n\n" ++
      (match p.stub with
        | some s => stubText p.name s
        | none => dispatchText p.name regex))))))))))))

/-- The beginning of the module (soapfish/templates/lib.jinja2:1-12, soapfish/templates/wsdl.jinja2:2-10); `generated` is the time. -/
def preambleText (wsa : Bool) (generated : Str) : Str :=
  py"# flake8:noqa\n# isort:skip_file\n" ++ (banner ++ (py"# Note: Generated by soapfish.wsdl2py at " ++ (generated ++
    (py"\n#       Try to avoid editing it if you might need to regenerate it.\n" ++ (banner ++
      (if wsa then py"\nfrom soapfish import soap, xsd, wsa\n\nBaseHeader = wsa.Header\n\n"
       else py"\nfrom soapfish import soap, xsd\n\nBaseHeader = xsd.ComplexType\n\n"))))))

/-- The whole text -/
def PyWsdlModule.text (wsa : Bool) (generated : Str) (oss : List (List Opening)) (regexes : List Str) (m : PyWsdlModule) : Str :=
  preambleText wsa generated ++ (banner ++ (py"# Schemas\n\n" ++ ((List.zipWith PyModule.text oss m.schemas).flatten ++
    (List.zipWith PyPort.text regexes m.ports).flatten)))

/-! ### The pattern in the comment -/

/-- `re.escape` of CPython's Lib/re/__init__.py -/
def reEscape (s : Str) : Str := s.flatMap fun c => if c ∈ py"()[]{}?*+-|^$\\.&~# \t\n\r\x0b\x0c" then ['\\', c] else [c]

section
variable (netlocOk : Str → Bool)

/-- The filter `url_regex` (soapfish/utils.py:98-99) -/
def urlRegex (url : Str) : Except Exn Str := do
  .ok (py"^" ++ (reEscape ((← urlparse netlocOk url).path.dropWhile (· = '/')) ++ py"$"))

/-- `service.ports.0.address.location|url_regex` -/
def regexOf (service : Val) : Except Exn Str := onUrl (urlRegex netlocOk) ((readList service py"ports").head?.bind addressOf)

/-- Whether the loop over the ports goes on with the next one (soapfish/templates/wsdl.jinja2:19-21) -/
def isHttp (definitions port : Val) : Except Exn Bool := do
  let binding ← getByName (← definitions.getA py"bindings") (← port.getA py"binding")
  .ok ((readChild binding py"binding").bind (readStr · py"transport") = some nsSoapHttp)

/-- The patterns for all ports; nothing is written for a client. -/
def wsdlRegexes (server : Bool) (definitions : Val) : Except Exn (List Str) := do
  let l ← mapE (fun p : Val × Val => do
    if ← isHttp definitions p.2 then .ok (some (← if server then regexOf netlocOk p.1 else .ok []))
    else .ok none) (portsOf definitions)
  .ok (l.filterMap id)

end

end Soapfish
