import Verif.Spec.Dispatch
import Verif.Spec.RoundTrip
import Verif.Client
/-
Vocabulary for stating what happens between client and server.
-/
namespace Soapfish

/-- A document survives being written and read, up to what serialisation does (`Back`). -/
def Travels (W : World) (doc : Xml) : Prop := ∃ doc', W.read (W.write doc) = some doc' ∧ Back doc doc'

/-- A server answering requests: dispatcher `d` in a program in state `s`; the answer is the content. -/
def served (W : World) (d : DispId) (s : State) (env : Env) (content : Bytes) : Except Exn Bytes :=
  match outcome (dispatch W d s.reqs.length) { s with reqs := s.reqs ++ [{ environ := env, content := content }] } with
  | .ok resp =>
    match resp.content with
    | .bytes b => .ok b
    | .str t => .ok (W.encode t)
    | .none => .ok []
  | .error e => .error e

/-- Dispatcher `d` serves method `m`, whose input and output are schema elements of classes `cin` and `cout`, without
middlewares and hooks. -/
structure Serves (W : World) (d : DispId) (m : MethodId) (tin tout : Str) (cin cout : ClsId) : Prop where
  depth : 4 ≤ W.depth
  sane : (W.table (W.disp d).service).Sane
  middlewares : (W.disp d).middlewares = []
  requestHook : (W.disp d).hooks.get? py"soap-request" = none
  responseHook : (W.disp d).hooks.get? py"soap-response" = none
  input : (W.method m).input = .name tin
  inputType : ∃ e, (W.disp d).service.findElement W tin = .ok (some e) ∧ e.type = .complex cin
  inputName : tin ≠ py"message" ∧ tin ≠ py"Fault"
  output : (W.method m).output = .name tout
  outputType : ∃ e, (W.disp d).service.findElement W tout = .ok (some e) ∧ e.type = .complex cout
  outputName : tout ≠ py"message" ∧ tout ≠ py"Fault"

/-- The class whose instances the server reads headers with. -/
def headerClass (S : Service) (m : Method) : Option ClsId :=
  match m.inputHeader with
  | some c => some c
  | none => S.inputHeader

/-- A header object that survives for a class: None, or a surviving instance of the class. -/
def HeaderSurvives (T : Table) (N : Nat) (cls : Option ClsId) (header : Val) : Prop :=
  header = Val.none ∨ ∃ c fs x, cls = some c ∧ header = .inst c fs x ∧ Survives T N (.complex c) (.inst c fs x)

end Soapfish
