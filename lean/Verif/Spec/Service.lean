import Verif.Spec.Wsdl
import Verif.Spec.Code
import Verif.Spec.Endpoint
/-
Vocabulary for stating what code generated from a WSDL document does.
-/
namespace Soapfish

/-- A name for a function or a parameter: a letter or an underscore followed by letters, digits and underscores, and no
keyword. -/
def FunctionName (n : Str) : Prop :=
  (∃ c cs, n = c :: cs ∧ IdentChar c ∧ ¬ ('0' ≤ c ∧ c ≤ '9') ∧ ∀ d ∈ cs, IdentChar d) ∧ n ∉ kwlist

/-- A method that survives the way through WSDL and generated code: input and output are elements, there is a SOAP action,
and the names can be names of functions and of parameters. -/
structure MethodSurvives (server : Bool) (m : WMethod) : Prop where
  name : FunctionName m.operationName ∧ ¬ py"__" <+: m.operationName
  input : ∃ i, m.input = .element i ∧ FunctionName i ∧
    if server then i ≠ py"request" else i ≠ py"self" ∧ i ≠ py"header"
  output : ∃ o, m.output = .element o ∧ FunctionName o
  soapAction : ∃ a, m.soapAction = some a ∧ PlainText '\'' a

/-- A service that survives. -/
structure ServiceSurvives (server : Bool) (limit : Nat) (s : WService) (g : GSchema) (a : WebAddress) : Prop where
  schema : s.schemas = [g] ∧ SchemaSurvives g limit
  name : (∀ c ∈ s.name, IdentChar c) ∧ ∀ c cs, s.name = c :: cs → ¬ ('0' ≤ c ∧ c ≤ '9')
  nspace : PlainText '\'' s.targetNamespace
  location : s.location = some a.text ∧ a.Ok ∧ PlainText '\'' a.text
  methods : ∀ m ∈ s.methods, MethodSurvives server m
  distinct : (s.methods.map (·.operationName)).Nodup
  /-- Functions of a server must not hide other names of the module. -/
  functions : server = true → ∀ m ∈ s.methods, m.operationName ≠ py"xsd" ∧ m.operationName ≠ py"soap" ∧
    ¬ py"Schema_" <+: m.operationName ∧ ∀ k ∈ s.methods, m.operationName ≠ k.operationName ++ py"_method"
  /-- Methods of a stub must not hide what the class uses itself. -/
  calls : server = false → ∀ m ∈ s.methods,
    m.operationName ∉ [py"SERVICE", py"SCHEME", py"HOST", py"_handle_response"]

/-- The service with another name and location, and without missing styles. -/
def WService.moved (s : WService) (name location : Str) : WService :=
  { s with name := name, location := some location,
           methods := s.methods.map fun m => { m with style := some (m.style.getD py"document") } }

end Soapfish
