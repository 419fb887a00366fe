import Verif.Wsdl
import Verif.Spec.Generate
import Verif.Spec.Values
/-
Vocabulary for stating what a generated WSDL document looks like, when one can be generated, and what looking up a name
in it gives.
-/
namespace Soapfish

/-- An element of the WSDL namespace with plain attributes. -/
def wsdlNode (name : Str) (attrs : List (Str × Str)) (kids : List Xml) : Xml :=
  .elem ⟨some nsWsdl, name⟩ (attrs.map fun p => (⟨none, p.1⟩, p.2)) none kids

/-- An element of the SOAP binding namespace of WSDL with plain attributes. -/
def soapNode (v : Version) (name : Str) (attrs : List (Str × Str)) : Xml :=
  .elem ⟨some v.bindingNs, name⟩ (attrs.map fun p => (⟨none, p.1⟩, p.2)) none []

/-- How the part of a message refers to its content. -/
def WPart.ref : WPart → List (Str × Str)
  | .element n => [(py"element", py"sns:" ++ n)]
  | .cls n => [(py"type", py"sns:" ++ refName n)]
  | .none => []

def messageDoc (name : Str) (p : WPart) : Xml :=
  wsdlNode py"message" [(py"name", name)] [wsdlNode py"part" ((py"name", py"body") :: p.ref) []]

def messagesDoc (m : WMethod) : List Xml :=
  [messageDoc (m.operationName ++ py"Input") m.input, messageDoc (m.operationName ++ py"Output") m.output]

def portTypeDoc (s : WService) : Xml :=
  wsdlNode py"portType" [(py"name", s.name ++ py"PortType")] (s.methods.map fun m =>
    wsdlNode py"operation" [(py"name", m.operationName)]
      [wsdlNode py"input" [(py"message", py"tns:" ++ m.operationName ++ py"Input")] [],
        wsdlNode py"output" [(py"message", py"tns:" ++ m.operationName ++ py"Output")] []])

def bindingOperationDoc (v : Version) (m : WMethod) : Xml :=
  wsdlNode py"operation" [(py"name", m.operationName)]
    [wsdlNode py"input" [] [soapNode v py"body" [(py"use", py"literal")]],
      wsdlNode py"output" [] [soapNode v py"body" [(py"use", py"literal")]],
      soapNode v py"operation" (optAttr py"soapAction" m.soapAction ++ optAttr py"style" m.style)]

def bindingDoc (v : Version) (s : WService) : Xml :=
  wsdlNode py"binding" [(py"name", s.name ++ py"Binding"), (py"type", py"tns:" ++ s.name ++ py"PortType")]
    (s.methods.map (bindingOperationDoc v) ++
      [soapNode v py"binding" [(py"style", py"document"), (py"transport", nsSoapHttp)]])

def serviceDoc (v : Version) (s : WService) : Xml :=
  wsdlNode py"service" [(py"name", s.name)]
    [wsdlNode py"port" [(py"name", s.name ++ py"Port"), (py"binding", py"tns:" ++ s.name ++ py"Binding")]
      [soapNode v py"address" (optAttr py"location" s.location)]]

/-- The WSDL document of a service. -/
def wsdlDocument (s : WService) : Xml :=
  wsdlNode py"definitions" [(py"targetNamespace", s.targetNamespace)]
    ([wsdlNode py"types" [] (s.schemas.map document)] ++ s.methods.flatMap messagesDoc ++ [portTypeDoc s] ++
      [bindingDoc s.version s] ++ [serviceDoc s.version s])

/-! ### When a WSDL document can be generated -/

/-- The method has an input and an output. -/
def PartBuilds : WPart → Prop
  | .element _ => True
  | .cls n => n ≠ []
  | .none => False

def MethodBuilds (m : WMethod) : Prop :=
  PartBuilds m.input ∧ PartBuilds m.output ∧ m.style ∈ [none, some py"document", some py"rpc"]

def WsdlBuildable (s : WService) : Prop :=
  (∀ g ∈ s.schemas, Buildable g) ∧ ∀ m ∈ s.methods, MethodBuilds m

def PartWrites : WPart → Prop
  | .element n => XmlOk n
  | .cls n => XmlOk (refName n)
  | .none => True

def MethodWrites (m : WMethod) : Prop :=
  XmlOk m.operationName ∧ (∀ a, m.soapAction = some a → XmlOk a) ∧ PartWrites m.input ∧ PartWrites m.output

def WsdlWritable (s : WService) : Prop :=
  XmlOk s.targetNamespace ∧ XmlOk s.name ∧ (∃ l, s.location = some l ∧ XmlOk l) ∧ (∀ g ∈ s.schemas, Writable g) ∧
  ∀ m ∈ s.methods, MethodWrites m

/-! ### Reading a description -/

/-- `v.a.b.c` for a path of attribute names. -/
def Val.path (v : Val) : List Str → Option Val
  | [] => some v
  | n :: ns => (v.attr n).bind fun w => w.path ns

/-- The attribute is a list with exactly these items. -/
def HasItems (v : Val) (name : Str) (items : List Val) : Prop := ∃ t, v.attr name = some (.list t items)

/-- The message has one part, 'body', that refers to the given input or output. -/
def Carries (message : Val) (p : WPart) : Prop :=
  ∃ part, HasItems message py"parts" [part] ∧ part.attr py"name" = some (.atom (.str py"body")) ∧
    match p with
    | .element n => part.attr py"element" = some (.atom (.str (py"sns:" ++ n))) ∧ part.attr py"type" = some Val.none
    | .cls n => part.attr py"type" = some (.atom (.str (py"sns:" ++ refName n))) ∧ part.attr py"element" = some Val.none
    | .none => False

/-- Looking up the input or output message of an operation of the binding gives the message of that name, which carries
the input or output of the method. -/
def FindsMessage (definitions binding operation : Val) (x : Str) (name : Str) (p : WPart) : Prop :=
  ∃ m, getMessageObject definitions binding operation x = .ok m ∧ m.attr py"name" = some (.atom (.str name)) ∧ Carries m p

/-- An operation of the binding that stands for the method. -/
def DescribesMethod (definitions binding : Val) (m : WMethod) (operation : Val) : Prop :=
  operation.attr py"name" = some (.atom (.str m.operationName)) ∧
  operation.path [py"operation", py"soapAction"] = some (optStr m.soapAction) ∧
  operation.path [py"operation", py"style"] = some (optStr m.style) ∧
  FindsMessage definitions binding operation py"input" (m.operationName ++ py"Input") m.input ∧
  FindsMessage definitions binding operation py"output" (m.operationName ++ py"Output") m.output ∧
  getMessageHeader definitions operation py"input" = .ok (.list false []) ∧
  getMessageHeader definitions operation py"output" = .ok (.list false [])

/-! ### The order WSDL 1.1 asks for -/

/-- The element's name in the WSDL namespace. -/
def Xml.IsWsdl (x : Xml) (name : Str) : Prop := ∃ a t ks, x = .elem ⟨some nsWsdl, name⟩ a t ks

/-- The schema of WSDL 1.1 puts extension elements (those of another namespace) before the WSDL elements inside every
WSDL element. -/
def ExtensionsFirst (x : Xml) : Prop :=
  ∃ ext own, x.children = ext ++ own ∧ (∀ k ∈ ext, ∀ n, ¬ k.IsWsdl n) ∧ ∀ k ∈ own, ∃ n, k.IsWsdl n

end Soapfish
