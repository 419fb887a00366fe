import Verif.Spec.Dispatch
import Verif.Spec.Documents
/-
Vocabulary for stating which requests a dispatcher answers.
-/
namespace Soapfish

/-- No processing instruction among the children. -/
def NoInstruction (x : Xml) : Prop := ∀ y ∈ x.kids, y ≠ .pi

/-- Marked with `xsi:nil="true"`. -/
def IsNil (x : Xml) : Prop := x.attr qNil = some py"true"

/-- Nothing that the classes for SOAP messages read stands in a place where they would: a Body has no child named
'message' or 'Fault'; it is not nil; no processing instructions. -/
structure Readable (doc : Xml) : Prop where
  instructions : NoInstruction doc
  bodies : ∀ b ∈ doc.kids, b.Named py"Body" →
    ¬ IsNil b ∧ NoInstruction b ∧ ∀ y ∈ b.kids, ¬ y.Named py"message" ∧ ¬ y.Named py"Fault"

/-- A readable document whose Header, if it has one, is not nil and has elements as children only, and whose Body, if it
has one, begins with an element. -/
structure Ordinary (doc : Xml) : Prop where
  readable : Readable doc
  header : ∀ h, LastChild doc py"Header" h → ¬ IsNil h ∧ ∀ y ∈ h.kids, ∃ n, y.Named n
  body : ∀ b, LastChild doc py"Body" b → ∃ x n, b.kids.head? = some x ∧ x.Named n

/-- The names of the elements in the parts of an envelope are texts that XML allows (they always are in a document that
was read). -/
def NamesAllowed (doc : Xml) : Prop := ∀ p ∈ doc.kids, ∀ y ∈ p.kids, ∀ n, y.Named n → XmlOk n

/-- The result of a method can be written as an answer: as a fault, or as a value under the name of the output element. -/
inductive CanWrite (W : World) (S : Service) (m : MethodId) (ret : Ret) : Prop where
  | fault {c msg h doc} : IsFault (.ok ret) c msg h →
      errorXml S.version (W.table S) W.depth c msg none h = .ok doc → CanWrite W S m ret
  | value {v t doc} : ret = .obj (.val v) → (W.method m).output = .name t →
      responseXml S.version (W.table S) W.depth t v Val.none = .ok doc → CanWrite W S m ret
  | response {resp v t doc} : ret = .response resp → resp.soapBody = .val v → (W.method m).output = .name t →
      responseXml S.version (W.table S) W.depth t v resp.soapHeader = .ok doc → CanWrite W S m ret

/-- The function of a method ends well: it leaves the request's method and dispatcher alone, and returns something that
can be written or raises an exception of a certain kind. -/
def Ends (W : World) (S : Service) (m : MethodId) (raises : Exn → Prop) (f : ReqId → Val → Prog Empty Ret) (v : Val) : Prop :=
  ∀ r s q, s.reqs[r]? = some q → q.method = some m →
    (∃ q', ((f r v).run' s).2.reqs[r]? = some q' ∧ q'.method = some m ∧ q'.dispatcher = q.dispatcher) ∧
    ((∃ e, outcome (f r v).run' s = .error e ∧ raises e) ∨
      ∃ ret, outcome (f r v).run' s = .ok ret ∧ CanWrite W S m ret)

/-- A SOAPError that can be written. -/
def CleanError (e : Exn) : Prop := ∃ c m a, e = .soapError c m a ∧ XmlOk c ∧ XmlOk m

/-- Validation of an element succeeds or fails; it does nothing else. -/
def Validates (check : Xml → Except Exn Unit) : Prop :=
  ∀ x n, x.Named n → check x = .ok () ∨ ∃ e, Invalid e ∧ check x = .error e

/-- The request has an action, or the element in the Body is not declared in the service's schemas merely for other
purposes: if it is declared, it is the input of a method or has a substitution group. -/
def Routable (W : World) (S : Service) (env : Env) (doc : Xml) : Prop :=
  (∃ a, HasAction S env a) ∨ ∀ b x n, LastChild doc py"Body" b → b.kids.head? = some x → x.Named n →
    ∀ s ∈ S.schemas, ∀ e, (W.schema s).elements.get? n = some e →
      (∃ m ∈ S.methods, (W.method m).input = .name n) ∨ e.substitutionGroup ≠ none

/-- The setting in which requests are answered: no hooks for SOAP requests; the recursion limit is not a problem. -/
structure Bare (W : World) (d : DispId) : Prop where
  depth : 4 ≤ W.depth
  requestHook : (W.disp d).hooks.get? py"soap-request" = none
  responseHook : (W.disp d).hooks.get? py"soap-response" = none

/-- A dispatcher whose parts fit together, as far as requests with environment `env` are concerned. -/
structure Fits (W : World) (d : DispId) (env : Env) : Prop where
  /-- texts that go into faults can be written -/
  texts : ∀ e, Invalid e → XmlOk (W.describe e)
  action : ∀ a, HasAction (W.disp d).service env a → XmlOk a
  /-- validation -/
  validator : Validates (W.disp d).validator
  wsa : Validates W.wsaValid
  /-- what is valid can be read by the method that handles it -/
  reads : ∀ x n m, (W.disp d).validator x = .ok () → x.Named n → Handles W (W.disp d).service env n m →
    ∃ v, ReadsInput W (W.disp d).service m x v
  headers : ∀ h m, (∀ y ∈ h.kids, HeaderOk W (W.disp d) y) → m ∈ (W.disp d).service.methods →
    ∃ v, ReadsHeader W (W.disp d).service m (some h) v
  /-- every method has a function, which ends well for what is valid -/
  functions : ∀ m ∈ (W.disp d).service.methods, ∃ f, (W.method m).function = some f ∧
    ∀ x v, (W.disp d).validator x = .ok () → ReadsInput W (W.disp d).service m x v →
      Ends W (W.disp d).service m CleanError f v

/-- An exception that can be turned into a fault: if it is a SOAPError, its texts can be written. -/
def Reportable (e : Exn) : Prop := ∀ c m a, e = .soapError c m a → XmlOk c ∧ XmlOk m

/-- Where date-times are read with a function that raises no SOAPErrors. -/
def ReadsDates (t : FType) : Prop :=
  ∀ iso, t = .simple (.datetime iso) → ∀ s e, iso s = .error e → OtherError e

/-- The little that a dispatcher needs in order to answer everything once ExceptionToSoapFault is in charge. -/
structure Shielded (W : World) (d : DispId) (traceback : Bool) (env : Env) : Prop where
  /-- texts that go into faults can be written -/
  texts : ∀ e, XmlOk (W.describe e)
  tracebacks : traceback = true → ∀ e, XmlOk (W.traceback e)
  action : ∀ a, HasAction (W.disp d).service env a → XmlOk a
  /-- validation -/
  validator : Validates (W.disp d).validator
  wsa : Validates W.wsaValid
  /-- reading dates -/
  dates : ∀ c, ∀ f ∈ (W.user c).fields, ReadsDates f.type
  elements : ∀ s n e, (W.schema s).elements.get? n = some e → ReadsDates e.type
  /-- functions return what can be written, or raise something -/
  functions : ∀ m ∈ (W.disp d).service.methods, ∀ f, (W.method m).function = some f → ∀ v,
    Ends W (W.disp d).service m Reportable f v

end Soapfish
