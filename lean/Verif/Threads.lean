import Verif.Dispatch
/-
The dispatcher in a server with threads (soapfish/soap_dispatch.py): every access to a request object is a step of its own, and
between two steps of a thread there may be any number of steps of other threads.

The functions of this file repeat those of `Verif/Dispatch.lean` with the steps kept apart; `Verif/Props/Threads.lean` proves
that they do the same when nobody interferes.  What happens between two accesses to request objects (reading, validating and
writing documents) is not divided further.
-/
namespace Soapfish

/-- A computation that is done in single steps; looking at a request that is not there gives nothing. -/
inductive Task (α : Type) where
  | done (o : Except Exn α)
  | get (r : ReqId) (k : Option Req → Task α)
  | set (r : ReqId) (q : Req) (k : Task α)
  | new (q : Req) (k : ReqId → Task α)
  | emit (e : Event) (k : Task α)

namespace Task

/-- One after the other; exceptions end both. -/
def bind {α β : Type} : Task α → (α → Task β) → Task β
  | .done (.ok a), f => f a
  | .done (.error e), _ => .done (.error e)
  | .get r k, f => .get r fun q => (k q).bind f
  | .set r q k, f => .set r q (k.bind f)
  | .new q k, f => .new q fun r => (k r).bind f
  | .emit e k, f => .emit e (k.bind f)

/-- The outcome as a value. -/
def outcome {α : Type} : Task α → Task (Except Exn α)
  | .done o => .done (.ok o)
  | .get r k => .get r fun q => (k q).outcome
  | .set r q k => .set r q k.outcome
  | .new q k => .new q fun r => (k r).outcome
  | .emit e k => .emit e k.outcome

instance : Monad Task where
  pure a := .done (.ok a)
  bind := bind

def read (r : ReqId) : Task Req := .get r fun
  | some q => .done (.ok q)
  | none => .done (.error .attributeError)
def write (r : ReqId) (q : Req) : Task Unit := .set r q (.done (.ok ()))
def note (e : Event) : Task Unit := .emit e (.done (.ok ()))

end Task

/-- User code in single steps; `nx` is what `next_call` does. -/
def Prog.task {ν α : Type} (nx : ν → ReqId → Task Ret) : Prog ν α → Task α
  | .ret a => .done (.ok a)
  | .raise e => .done (.error e)
  | .get r k => (Task.read r).bind fun q => (k q).task nx
  | .set r q k => .set r q (k.task nx)
  | .new q k => .new q fun r => (k r).task nx
  | .log e k => .emit (.log e) (k.task nx)
  | .next t r k => (nx t r).outcome.bind fun o => (k o).task nx

/-- User code that cannot call `next`. -/
def Prog.task' {α : Type} (p : Prog Empty α) : Task α := p.task (fun t _ => nomatch t)

section
variable (W : World)

/-- `_prepare_request` (soapfish/soap_dispatch.py:150-164) -/
def prepareRequestT (d : Dispatcher) (r : ReqId) : Task Unit := do
  let q ← Task.read r
  let (header, x) ← Task.done (readAndValidate W d q.content)
  let m ← Task.done (findHandler W d.service q.environ x)
  Task.write r { q with method := some m }
  let h ← Task.done (parseHeaderPart W d.service (W.method m) header)
  Task.write r { q with method := some m, soapHeader := h }
  let b ← Task.done (parseInput W d.service (W.method m) x)
  Task.write r { q with method := some m, soapHeader := h, soapBody := b }

/-- `call_method` (soapfish/soap_dispatch.py:18-21) -/
def callMethodT (r : ReqId) : Task Ret := do
  let q ← Task.read r
  let d ← Task.done (optE .attributeError q.dispatcher)
  prepareRequestT W (W.disp d) r
  let q ← Task.read r
  let m ← Task.done (optE .attributeError q.method)
  let f ← Task.done (optE .typeError (W.method m).function)
  Task.note (.method m r q q.soapBody)
  let ret ← (f r q.soapBody).task'
  Task.done (.ok (.response ret.toResponse))

/-- `middleware(i)` for the list from `i` on (soapfish/soap_dispatch.py:55-59). -/
def chainT : List Middleware → ReqId → Task Ret
  | [], r => callMethodT W r
  | m :: ms, r => (m r).task (fun _ r' => chainT ms r')

/-- `_call_hook` (soapfish/soap_dispatch.py:239-246) for a request hook. -/
def callRequestHookT (d : Dispatcher) (name : Str) (r : ReqId) : Task ReqId := do
  let obj ← (match d.hooks.get? name with
    | some h => (Task.note (.hook name)).bind fun _ => (h r none).task'
    | none => .done (.ok (.request r)))
  match obj with
  | .request r => .done (.ok r)
  | _ => .done (.error .typeError)

/-- `_call_hook` (soapfish/soap_dispatch.py:239-246) for a response hook. -/
def callResponseHookT (d : Dispatcher) (name : Str) (r : ReqId) (resp : Response) : Task Response := do
  let obj ← (match d.hooks.get? name with
    | some h => (Task.note (.hook name)).bind fun _ => (h r (some resp)).task'
    | none => .done (.ok (.response resp)))
  match obj with
  | .response resp => .done (.ok resp)
  | _ => .done (.error .typeError)

/-- `handle_soap_request` (soapfish/soap_dispatch.py:180-209) -/
def handleSoapT (d : DispId) (r : ReqId) : Task Response := do
  let r ← callRequestHookT (W.disp d) py"soap-request" r
  let q ← Task.read r
  Task.write r { q with dispatcher := some d }
  let o ← (chainT W (W.disp d).middlewares r).outcome
  let resp ← Task.done (catchSoapError o)
  let q ← Task.read r
  let resp ← Task.done (finishResponse W (W.disp d) q.method resp)
  callResponseHookT (W.disp d) py"soap-response" r resp

/-- `handle_wsdl_request` (soapfish/soap_dispatch.py:211-219) -/
def handleWsdlT (d : DispId) (r : ReqId) : Task Response := do
  let r ← callRequestHookT (W.disp d) py"wsdl-request" r
  let q ← Task.read r
  let wsdl ← Task.done (wsdlFor W (W.disp d) q.environ)
  callResponseHookT (W.disp d) py"wsdl-response" r
    (mkResponse (.val (.atom (.str py"wsdl"))) (content := .bytes wsdl) (headers := [(py"Content-Type", py"text/xml")]))

/-- `handle_xsd_request` (soapfish/soap_dispatch.py:221-233) -/
def handleXsdT (d : DispId) (r : ReqId) : Task Response := do
  let r ← callRequestHookT (W.disp d) py"xsd-request" r
  let q ← Task.read r
  callResponseHookT (W.disp d) py"wsdl-response" r (xsdAnswer (W.disp d) q.environ)

/-- `dispatch` (soapfish/soap_dispatch.py:166-178) -/
def dispatchT (d : DispId) (r : ReqId) : Task Response := do
  let q ← Task.read r
  let method := (q.environ py"REQUEST_METHOD").getD []
  let qs := parseQs ((q.environ py"QUERY_STRING").getD [])
  if method = py"GET" ∧ (py"wsdl" ∈ qs.keys ∨ py"singleWsdl" ∈ qs.keys) then handleWsdlT W d r
  else if method = py"GET" ∧ py"xsd" ∈ qs.keys then handleXsdT W d r
  else if method = py"POST" then handleSoapT W d r
  else .done (.ok badRequest)

end

/-- A server at work: the request objects, what each thread still has to do, and what happened so far in which thread. -/
structure Server where
  reqs : List Req
  threads : List (Task Response)
  log : List (Nat × Event) := []

/-- One step of thread `i`; nothing if it is done. -/
def Server.step (w : Server) (i : Nat) : Server :=
  match w.threads[i]? with
  | some (.get r k) => { w with threads := w.threads.set i (k w.reqs[r]?) }
  | some (.set r q k) => { w with reqs := w.reqs.set r q, threads := w.threads.set i k }
  | some (.new q k) => { w with reqs := w.reqs ++ [q], threads := w.threads.set i (k w.reqs.length) }
  | some (.emit e k) => { w with threads := w.threads.set i k, log := w.log ++ [(i, e)] }
  | _ => w

/-- The threads take turns as the schedule says. -/
def Server.runs (w : Server) (schedule : List Nat) : Server := schedule.foldl Server.step w

end Soapfish
