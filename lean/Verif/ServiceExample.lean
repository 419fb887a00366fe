import Verif.Dispatch
/-
An example service, used to show that the theorems about the dispatcher are not vacuous.
-/
namespace Soapfish

namespace ExS

def ns : Str := py"urn:x"

/-- Classes 8 (`SayHello`) and 9 (`SayHelloResponse`). -/
def user : Table
  | 8 => { name := py"SayHello", mro := [8, 0], schema := some ⟨some ns, false⟩, fields := [
      { name := py"name", kind := .element, type := .simple (.string {}) }] }
  | 9 => { name := py"SayHelloResponse", mro := [9, 0], schema := some ⟨some ns, false⟩, fields := [
      { name := py"greeting", kind := .element, type := .simple (.string {}) }] }
  | _ => { name := py"Other", mro := [0], fields := [] }

def answer : Val := .inst 9 [(py"greeting", .atom (.str py"hi"))] none

def hello : Method where
  operationName := py"SayHello"
  soapAction := py"urn:x/hello"
  input := .name py"sayHello"
  output := .name py"sayHelloResponse"
  function := some fun _ _ => .ret (.obj (.val answer))

def schema : Schema where
  targetNamespace := ns
  elements := [(py"sayHello", { type := .complex 8 }), (py"sayHelloResponse", { type := .complex 9 }),
    (py"sayHi", { type := .complex 8, substitutionGroup := some py"sns:sayHello" })]

def body (tag : Str) : Xml := .elem ⟨some ns, tag⟩ [] none [.elem ⟨none, py"name"⟩ [] (some py"Bob") []]

def envelope (ks : List Xml) : Xml := .elem ⟨some Version.soap11.envelopeNs, py"Envelope"⟩ [] none ks
def bodyElem (x : Xml) : Xml := .elem ⟨some Version.soap11.envelopeNs, py"Body"⟩ [] none [x]
def headerElem (ks : List Xml) : Xml := .elem ⟨some Version.soap11.envelopeNs, py"Header"⟩ [] none ks

/-- A header element nobody knows. -/
def extra : Xml := .elem ⟨some py"urn:other", py"token"⟩ [] (some py"t") []

def reader : Bytes → Option Xml
  | [1] => some (envelope [bodyElem (body py"sayHello")])
  | [2] => some (envelope [bodyElem (body py"sayHi")])
  | [3] => some (envelope [headerElem [extra], bodyElem (body py"sayHello")])
  | [4] => some (envelope [bodyElem (body py"sayHelloResponse")])
  | [5] => some (envelope [bodyElem (body py"sayGoodbye")])
  | _ => none

/-- Only elements of the service's namespace are valid. -/
def valid : Xml → Except Exn Unit
  | .elem q _ _ _ => if q.ns = some ns then .ok () else .error .documentInvalid
  | _ => .error .valueError

def disp (strict : Bool) : Dispatcher where
  service := { schemas := [0], methods := [0] }
  strict := strict
  validator := valid
  wsdl := [60, 62]

def world (strict : Bool := true) : World where
  user := user
  depth := 10
  method := fun _ => hello
  schema := fun _ => schema
  disp := fun _ => disp strict
  read := reader
  write := fun _ => [0]
  encode := fun s => s.map (·.toNat)
  decode := fun b => .ok (b.map Char.ofNat)
  wsaValid := fun _ => .ok ()
  describe := fun _ => py"invalid"
  traceback := fun _ => []

def request (method : Str) (content : Bytes) (extra : Dict Str := []) : Req where
  environ := Dict.env ((py"REQUEST_METHOD", method) :: extra)
  content := content

end ExS

end Soapfish
