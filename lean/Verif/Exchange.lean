import Verif.Client
/-
What a stub exchanges with the network (soapfish/soap.py:80-140): `requests.post` is a function given from outside, whose answer
may depend on everything sent before.  `Verif/Client.lean` leaves out the address, the credentials, and the status and the
headers of the answer.
-/
namespace Soapfish

/-- The attributes of a stub (soapfish/soap.py:87-101) -/
structure Stub where
  username : Option Str := none
  password : Option Str := none
  service : Service
  location : Str

/-- `Stub.__init__` (soapfish/soap.py:87-101); `template` is `service.location`, `scheme` and `host` are the class attributes. -/
def newStub (template scheme host : Str) (service : Service) (username password : Option Str) (location : Location) :
    Except Exn Stub := do
  let location ← stubLocation template scheme host location
  .ok { username := username, password := password, service := service, location := location }

/-- The arguments of `requests.post` (soapfish/soap.py:137) -/
structure Posted where
  location : Str
  auth : Option (Str × Option Str)
  headers : Dict Str
  data : Bytes

/-- What `requests.post` returns, as far as it concerns a stub: also the status, which is not looked at -/
structure HttpAnswer where
  status : Nat
  headers : Dict Str
  content : Bytes

/-- `auth = (self.username, self.password) if self.username else None` (soapfish/soap.py:130) -/
def Stub.auth (t : Stub) : Option (Str × Option Str) :=
  match t.username with
  | some (c :: u) => some (c :: u, t.password)
  | _ => none

/-- `Stub.call` (soapfish/soap.py:125-140): the outcome, and what was sent up to now -/
def Stub.call (W : World) (net : List Posted → Posted → Except Exn HttpAnswer) (t : Stub) (op : Str) (param header : Val)
    (sent : List Posted) : Except CallError Response × List Posted :=
  match t.service.getMethod W op with
  | .error e => (.error (.other e), sent)
  | .ok m =>
    match callDoc W t.service (W.method m) param header with
    | .error e => (.error (.other e), sent)
    | .ok doc =>
      let p : Posted := { location := t.location, auth := t.auth,
                          headers := t.service.version.requestHeaders (W.method m).soapAction, data := W.write doc }
      match net sent p with
      | .error e => (.error (.other e), sent ++ [p])
      | .ok r => (handleResponse W t.service (W.method m) r.content, sent ++ [p])

/-- Calls one after the other, each with its outcome -/
def Stub.calls (W : World) (net : List Posted → Posted → Except Exn HttpAnswer) (t : Stub) :
    List (Str × Val × Val) → List Posted → List (Except CallError Response) × List Posted
  | [], sent => ([], sent)
  | c :: l, sent =>
    let r := t.call W net c.1 c.2.1 c.2.2 sent
    let rest := Stub.calls W net t l r.2
    (r.1 :: rest.1, rest.2)

end Soapfish
