import Verif.Spec.Service
import Verif.Spec.Dispatch
import Verif.ServiceRun
/-
Vocabulary for stating what code generated from an arbitrary WSDL document does.
-/
namespace Soapfish

/-- Python's escape sequences of two characters, without those for line ends. -/
def shortEscapes : List (Char × Char) :=
  [('\\', '\\'), ('\'', '\''), ('"', '"'), ('n', '\n'), ('r', '\r'), ('t', '\t'), ('a', Char.ofNat 7), ('b', Char.ofNat 8),
    ('f', Char.ofNat 12), ('v', Char.ofNat 11)]

/-- The value of a Python literal, given the text between the quotes.  Escapes with numbers or names, and escaped line ends,
are left out. -/
inductive Means (quote : Char) : Str → Str → Prop where
  | nil : Means quote [] []
  | char {c s v} : c ≠ quote → c ≠ '\\' → c ≠ '\n' → c ≠ '\r' → c ≠ Char.ofNat 0 → Means quote s v →
      Means quote (c :: s) (c :: v)
  | escape {c d s v} : (c, d) ∈ shortEscapes → Means quote s v → Means quote ('\\' :: c :: s) (d :: v)
  | other {c s v} : c ∉ shortEscapes.map (·.1) → c ∉ ['x', 'u', 'U', 'N', '\n', '\r'] → ¬ ('0' ≤ c ∧ c ≤ '9') →
      Means quote s v → Means quote ('\\' :: c :: s) ('\\' :: c :: v)

/-- The attribute is that text. -/
def HasText (v : Val) (name s : Str) : Prop := v.attr name = some (.atom (.str s))

/-- The items of a list that may be missing. -/
def ItemsOf (v : Val) (name : Str) (items : List Val) : Prop :=
  HasItems v name items ∨ (items = [] ∧ ∀ l, ¬ HasItems v name l)

/-- The item that a reference stands for: the first in the list whose name is the reference without prefix. -/
def NamesItem (v : Val) (list reference : Str) (item : Val) : Prop :=
  ∃ before after name, HasItems v list (before ++ item :: after) ∧ AfterColon reference name ∧ HasText item py"name" name ∧
    ∀ b ∈ before, ¬ HasText b py"name" name

/-- The input or output message of an operation of a binding. -/
def MessageOf (d binding operation : Val) (x : Str) (message : Val) : Prop :=
  ∃ type name reference portType o use, HasText binding py"type" type ∧ NamesItem d py"portTypes" type portType ∧
    HasText operation py"name" name ∧ NamesItem portType py"operations" name o ∧
    o.attr x = some use ∧ HasText use py"message" reference ∧ NamesItem d py"messages" reference message

/-- The message has one part, with a reference to an element: its name without prefix. -/
def PartElement (message : Val) (part : Val) (name : Str) : Prop :=
  ∃ reference, HasItems message py"parts" [part] ∧ HasText part py"element" reference ∧ reference ≠ [] ∧
    AfterColon reference name

/-- The parts that the headers of an operation's input or output refer to. -/
def HeaderParts (d operation : Val) (x : Str) (parts : List Val) : Prop :=
  ∃ use headers, operation.attr x = some use ∧ HasItems use py"headers" headers ∧
    All2 (fun h p => ∃ reference name message, HasText h py"message" reference ∧ NamesItem d py"messages" reference message ∧
      HasText h py"part" name ∧ NamesItem message py"parts" name p) headers parts

/-- What a header class has for a part: the first element of that name in the schema; nothing if there is none. -/
def HeaderField (g : GSchema) (part : Val) (field : Option (Str × GTop)) : Prop :=
  ∃ reference name value, HasText part py"element" reference ∧ AfterColon reference name ∧ Means '\'' name value ∧
    match field with
    | some (n, e) => HasText part py"name" n ∧ ∃ before after, g.elements = before ++ e :: after ∧ e.name = value ∧
        ∀ b ∈ before, b.name ≠ value
    | none => ∀ e ∈ g.elements, e.name ≠ value

/-- The header class for an operation's input or output. -/
def HeaderFor (d operation : Val) (x : Str) (h : Option HeaderObj) : Prop :=
  match h with
  | some h => ∃ parts g fields, HeaderParts d operation x parts ∧ parts ≠ [] ∧ All2 (HeaderField g) parts fields ∧
      h.elements = fields.filterMap id
  | none => ∀ parts, HeaderParts d operation x parts → parts = []

/-- What a method has for the output message: the element of its only part, or the class for the type of its only part,
or nothing if the message has no parts or there is no message. -/
inductive OutputFor (message : Option Val) : WPart → Str → Prop where
  | element {m part name value partName} : message = some m → PartElement m part name → Means '\'' name value →
      (∀ n, HasText part py"name" n → Means '\'' n partName) → OutputFor message (.element value) partName
  | cls {m part c} : message = some m → HasItems m py"parts" [part] → (∀ r, HasText part py"element" r → r = []) →
      OutputFor message (.cls c) py"body"
  | none : (∀ m p ps, message = some m → ¬ HasItems m py"parts" (p :: ps)) → OutputFor message .none py"body"

/-- The method for an operation of a binding. -/
structure MethodFor (d binding : Val) (server : Bool) (operation : Val) (k : MethodObj) : Prop where
  name : HasText operation py"name" k.operationName ∧ FunctionName k.operationName
  /-- The text of the document as a Python literal; `None` if the attribute is missing. -/
  soapAction : (∀ o a, operation.attr py"operation" = some o → HasText o py"soapAction" a → Means '\'' a k.soapAction) ∧
    (operation.path [py"operation", py"soapAction"] = some Val.none → k.soapAction = py"None")
  style : (∀ o a, operation.attr py"operation" = some o → HasText o py"style" a → a ≠ [] → Means '\'' a k.style) ∧
    ((∀ o a, operation.attr py"operation" = some o → HasText o py"style" a → a = []) → k.style = py"document")
  input : ∃ message part name, MessageOf d binding operation py"input" message ∧ PartElement message part name ∧
    k.input = .element name ∧ FunctionName name ∧ ∀ n, HasText part py"name" n → Means '\'' n k.inputPartName
  output : ∃ message, (∀ m, message = some m → MessageOf d binding operation py"output" m) ∧
    (message = none → ∀ m, ¬ MessageOf d binding operation py"output" m) ∧ OutputFor message k.output k.outputPartName
  /-- Header classes are named after the messages: those for input and output must not get the same name. -/
  inputHeader : (k.outputHeader = none ∨ ∃ m m' n n', MessageOf d binding operation py"input" m ∧
      MessageOf d binding operation py"output" m' ∧ HasText m py"name" n ∧ HasText m' py"name" n' ∧ n ≠ n') →
    HeaderFor d operation py"input" k.inputHeader
  outputHeader : HeaderFor d operation py"output" k.outputHeader
  function : k.function = if server then some k.operationName else none

/-- The service, and for a client the stub, for a port. -/
structure PortFor (d : Val) (server : Bool) (v : Version) (port binding : Val) (o : PortObj) : Prop where
  name : ∀ n, HasText port py"name" n → o.service.name = n
  targetNamespace : ∀ n, HasText d py"targetNamespace" n → Means '\'' n o.service.targetNamespace
  version : o.service.version = v
  location : ∀ a : WebAddress, a.Ok → port.path [py"address", py"location"] = some (.atom (.str a.text)) →
    Means '\'' (py"${scheme}://${host}" ++ a.tidied.rest) o.service.location
  methods : ∃ operations, ItemsOf binding py"operations" operations ∧
    -- of operations with the same name, the last one counts
    All2 (fun op k => ∃ before last after, operations = before ++ last :: after ∧
      HasText op py"name" k.operationName ∧ (∀ b ∈ after, ¬ HasText b py"name" k.operationName) ∧
      MethodFor d binding server last k) operations o.service.methods
  stub : if server then o.stub = none else ∃ stub, o.stub = some stub ∧ stub.service = o.service ∧
    (∀ a : WebAddress, a.Ok → PlainText '\'' a.text → '$' ∉ a.rest →
      port.path [py"address", py"location"] = some (.atom (.str a.text)) → stub.location = .ok a.tidied.text) ∧
    ∀ m ∈ o.service.methods, stub.invoke m.operationName =
      if m.operationName ∈ [py"username", py"password", py"service", py"location"] ∨
        py"call" ∈ o.service.methods.map (·.operationName) then .error .typeError else .ok m.operationName

/-- The schemas in the document's types. -/
def SchemasOf (d : Val) (schemas : List Val) : Prop :=
  (schemas = [] ∨ ∃ types, d.attr py"types" = some types ∧ HasItems types py"schemas" schemas) ∧
  ∀ types l, d.attr py"types" = some types → HasItems types py"schemas" l → schemas = l

/-- The target namespace of a schema in the document: its own, or the document's if it has none. -/
def NamespaceOf (d schema : Val) (n : Str) : Prop :=
  HasText schema py"targetNamespace" n ∨
    ((∀ n, ¬ HasText schema py"targetNamespace" n) ∧ HasText d py"targetNamespace" n)

/-- The schema object for a schema of the document: its namespace and the names of its elements. -/
structure SchemaFor (d schema : Val) (g : GSchema) : Prop where
  targetNamespace : ∃ n, NamespaceOf d schema n ∧ Means '\'' n g.targetNamespace
  elements : ∃ items, ItemsOf schema py"elements" items ∧
    (∀ e ∈ items, ∀ n, HasText e py"name" n → ∃ t ∈ g.elements, Means '\'' n t.name) ∧
    ∀ t ∈ g.elements, ∃ e ∈ items, ∀ n, HasText e py"name" n → Means '\'' n t.name

/-- The ports of all services, in the order of the document. -/
def PortsOf (d : Val) (ports : List Val) : Prop :=
  ∃ services lists, ItemsOf d py"services" services ∧ All2 (fun s l => ItemsOf s py"ports" l) services lists ∧
    ports = lists.flatten

/-- One service for every port whose binding is SOAP over HTTP, in their order. -/
inductive PortsFor (d : Val) (server : Bool) (v : Version) : List Val → List PortObj → Prop where
  | nil : PortsFor d server v [] []
  | soap {port binding reference o ports os} : HasText port py"binding" reference → NamesItem d py"bindings" reference binding →
      binding.path [py"binding", py"transport"] = some (.atom (.str nsSoapHttp)) → PortFor d server v port binding o →
      PortsFor d server v ports os → PortsFor d server v (port :: ports) (o :: os)
  | other {port binding reference ports os} : HasText port py"binding" reference → NamesItem d py"bindings" reference binding →
      binding.path [py"binding", py"transport"] ≠ some (.atom (.str nsSoapHttp)) →
      PortsFor d server v ports os → PortsFor d server v (port :: ports) os

end Soapfish
