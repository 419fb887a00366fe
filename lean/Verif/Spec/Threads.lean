import Verif.Threads
import Verif.Spec.Dispatch
/-
Vocabulary for servers with threads.
-/
namespace Soapfish

/-- User code that looks at and changes the request `r` only, makes no new requests, and returns something with `P`. -/
inductive KeepsTo {ν α : Type} (r : ReqId) (P : α → Prop) : Prog ν α → Prop where
  | ret {a} : P a → KeepsTo r P (.ret a)
  | raise {e} : KeepsTo r P (.raise e)
  | get {k} : (∀ q, KeepsTo r P (k q)) → KeepsTo r P (.get r k)
  | set {q k} : KeepsTo r P k → KeepsTo r P (.set r q k)
  | log {e k} : KeepsTo r P k → KeepsTo r P (.log e k)
  | next {t k} : (∀ o, KeepsTo r P (k o)) → KeepsTo r P (.next t r k)

/-- Methods, middlewares and hooks use only the request they are called with; request hooks return this one. -/
structure MindsItsOwn (W : World) : Prop where
  methods : ∀ m f, (W.method m).function = some f → ∀ r v, KeepsTo r (fun _ => True) (f r v)
  middlewares : ∀ d, ∀ m ∈ (W.disp d).middlewares, ∀ r, KeepsTo r (fun _ => True) (m r)
  hooks : ∀ d name h, (W.disp d).hooks.get? name = some h → ∀ r resp, KeepsTo r (fun x => ∀ r', x = .request r' → r' = r) (h r resp)

/-- A server that is about to serve: each thread `i` has a dispatcher and a request of its own. -/
def serving (W : World) (reqs : List Req) (jobs : List (DispId × ReqId)) : Server :=
  { reqs := reqs, threads := jobs.map fun j => dispatchT W j.1 j.2 }

/-- The events of one thread. -/
def Server.eventsOf (w : Server) (i : Nat) : List Event := (w.log.filter fun p => p.1 = i).map (·.2)

end Soapfish
