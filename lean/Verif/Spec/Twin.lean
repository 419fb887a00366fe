import Verif.Spec.Described
import Verif.Spec.Calls
/-
Vocabulary for stating that a client and a server fit together.
-/
namespace Soapfish

/-- Two methods that differ at most in their functions. -/
structure SameMethod (a b : MethodObj) : Prop where
  operationName : a.operationName = b.operationName
  soapAction : a.soapAction = b.soapAction
  input : a.input = b.input
  output : a.output = b.output
  inputPartName : a.inputPartName = b.inputPartName
  outputPartName : a.outputPartName = b.outputPartName
  inputHeader : a.inputHeader = b.inputHeader
  outputHeader : a.outputHeader = b.outputHeader
  style : a.style = b.style

/-- Two services that differ at most in the functions of their methods. -/
structure SameService (a b : ServiceObj) : Prop where
  name : a.name = b.name
  targetNamespace : a.targetNamespace = b.targetNamespace
  location : a.location = b.location
  schemas : a.schemas = b.schemas
  methods : All2 SameMethod a.methods b.methods
  version : a.version = b.version

/-- `input` or `output` of a method of a running program, whose classes have numbers. -/
def partAt (cls : Str → ClsId) : WPart → Part
  | .element n => .name n
  | .cls n => .cls (cls n)
  | .none => .none

/-- The service `S` of a running program is the one described by `o`; `type` are the types of the program's elements,
`header` and `cls` its classes. -/
structure Runs (W : World) (S : Service) (o : ServiceObj) (type : GTop → FType) (header : HeaderObj → ClsId)
    (cls : Str → ClsId) : Prop where
  version : S.version = o.version
  methods : All2 (fun i (k : MethodObj) => (W.method i).operationName = k.operationName ∧
    (W.method i).soapAction = k.soapAction ∧ (W.method i).input = partAt cls k.input ∧
    (W.method i).output = partAt cls k.output ∧ (W.method i).inputHeader = k.inputHeader.map header ∧
    (W.method i).outputHeader = k.outputHeader.map header) S.methods o.methods
  schemas : All2 (fun i (g : GSchema) => (W.schema i).imports = [] ∧ (W.schema i).includes = [] ∧
    ∀ n, ((W.schema i).elements.get? n).map (·.type) = (g.elements.find? fun e => e.name = n).map type) S.schemas o.schemas

/-- Two programs with the same classes, that read and write XML in the same way. -/
structure Alike (W W' : World) : Prop where
  user : W.user = W'.user
  depth : W.depth = W'.depth
  read : W.read = W'.read
  write : W.write = W'.write

end Soapfish
