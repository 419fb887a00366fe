import Verif.Dispatch
/-
Vocabulary for stating what the dispatcher does with a request.
-/
namespace Soapfish

/-- The first element of a list with a property. -/
def First {α : Type} (p : α → Prop) (l : List α) (a : α) : Prop :=
  ∃ pre post, l = pre ++ a :: post ∧ p a ∧ ∀ b ∈ pre, ¬ p b

/-- The node is an element with the given local name. -/
def Xml.Named (name : Str) (x : Xml) : Prop := ∃ q a t k, x = .elem q a t k ∧ q.loc = name

/-- The last child of a document with the given local name. -/
def LastChild (doc : Xml) (name : Str) (x : Xml) : Prop :=
  ∃ pre post, doc.kids = pre ++ x :: post ∧ x.Named name ∧ ∀ y ∈ post, ¬ y.Named name

/-- A failed validation, as opposed to other exceptions. -/
def Invalid (e : Exn) : Prop := e = .documentInvalid ∨ e = .xmlSyntaxError

/-- A child of the SOAP header that does not stand in the way: an element which is valid or, outside the WS-Addressing
namespace and in non-strict mode, at least could be validated. -/
def HeaderOk (W : World) (d : Dispatcher) (x : Xml) : Prop :=
  ∃ q a t k, x = .elem q a t k ∧
    (q.ns = some nsWsa → W.wsaValid x = .ok ()) ∧
    (q.ns ≠ some nsWsa → d.validator x = .ok () ∨ (d.strict = false ∧ ∃ e, Invalid e ∧ d.validator x = .error e))

/-- `Checked W d content x`: the content is a well-formed document, `x` is the first child of its SOAP body and an
element, `x` is valid, and so is the SOAP header. -/
def Checked (W : World) (d : Dispatcher) (content : Bytes) (x : Xml) : Prop :=
  ∃ doc body, W.read content = some doc ∧ LastChild doc py"Body" body ∧ body.kids.head? = some x ∧
    (∃ name, x.Named name) ∧ d.validator x = .ok () ∧
    ∀ h, LastChild doc py"Header" h → ∀ y ∈ h.kids, HeaderOk W d y

/-- An ordinary SOAP message: an envelope with at most a Header and a Body, not marked nil; the Body has one child. -/
def PlainMessage (doc : Xml) (hdr : Option Xml) (x : Xml) : Prop :=
  ∃ q a t qb ab tb n, doc = .elem q a t (hdr.toList ++ [.elem qb ab tb [x]]) ∧ qb.loc = py"Body" ∧
    attrGet ab qNil ≠ some py"true" ∧ x.Named n ∧ n ≠ py"message" ∧ n ≠ py"Fault" ∧
    ∀ h, hdr = some h → ∃ qh ah th kh, h = .elem qh ah th kh ∧ qh.loc = py"Header" ∧ attrGet ah qNil ≠ some py"true"

/-- The value of a method's parameter read from an element: by the type of the schema element named by `input`, or by
the class given as `input`. -/
inductive ReadsInput (W : World) (S : Service) (m : MethodId) (x : Xml) : Val → Prop where
  | element {n e v} : (W.method m).input = .name n → S.findElement W n = .ok (some e) →
      parseType (parseCls (W.table S) W.depth W.depth) e.type x = .ok v → ReadsInput W S m x v
  | cls {c v} : (W.method m).input = .cls c → parseCls (W.table S) W.depth W.depth c x = .ok v →
      ReadsInput W S m x v

/-- The value of a request's header object: none without header or header class, else the header read by the method's
header class or, if it has none, by the service's. -/
inductive ReadsHeader (W : World) (S : Service) (m : MethodId) : Option Xml → Val → Prop where
  | missing : ReadsHeader W S m none Val.none
  | unknown {h} : (W.method m).inputHeader = none → S.inputHeader = none → ReadsHeader W S m (some h) Val.none
  | method {h c v} : (W.method m).inputHeader = some c → parseCls (W.table S) W.depth W.depth c h = .ok v →
      ReadsHeader W S m (some h) v
  | service {h c v} : (W.method m).inputHeader = none → S.inputHeader = some c →
      parseCls (W.table S) W.depth W.depth c h = .ok v → ReadsHeader W S m (some h) v

/-- The text after the last colon. -/
def AfterColon (g n : Str) : Prop := ':' ∉ n ∧ (g = n ∨ ∃ p, g = p ++ ':' :: n)

/-- The request carries a SOAP action, which is not empty. -/
def HasAction (S : Service) (env : Env) (a : Str) : Prop := S.version.determineAction env = some a ∧ a ≠ []

/-- Which method answers a request whose body has an element with local name `root`. -/
inductive Handles (W : World) (S : Service) (env : Env) (root : Str) : MethodId → Prop where
  /-- the first with the SOAP action of the request, if it has one -/
  | action {a m} : HasAction S env a → First (fun m => (W.method m).soapAction = a) S.methods m → Handles W S env root m
  /-- without action, the first whose input is the name of the element -/
  | input {m} : (∀ a, ¬ HasAction S env a) → First (fun m => (W.method m).input = .name root) S.methods m →
      Handles W S env root m
  /-- else the first whose input is the head of the substitution group of the first schema element with that name -/
  | substitution {m s e g n} : (∀ a, ¬ HasAction S env a) → (∀ m ∈ S.methods, (W.method m).input ≠ .name root) →
      First (fun s => ∃ e, (W.schema s).elements.get? root = some e) S.schemas s →
      (W.schema s).elements.get? root = some e → e.substitutionGroup = some g → AfterColon g n →
      First (fun m => (W.method m).input = .name n) S.methods m → Handles W S env root m

/-- A call of a method, as recorded, that was made on checked input: the request's own content. -/
def CallOk (W : World) : Event → Prop
  | .method m _ q v => ∃ d x root, q.dispatcher = some d ∧ Checked W (W.disp d) q.content x ∧ x.Named root ∧
      Handles W (W.disp d).service q.environ root m ∧ ReadsInput W (W.disp d).service m x v
  | _ => True

/-- No method call. -/
def Event.NotCall : Event → Prop
  | .method _ _ _ _ => False
  | _ => True

/-- No hook call. -/
def Event.NotHook : Event → Prop
  | .hook _ => False
  | _ => True

/-- What happened during a computation started in `s`. -/
def happened {α : Type} (m : M α) (s : State) : List Event := (m s).2.trace.drop s.trace.length

/-- The outcome of a computation started in `s`. -/
def outcome {α : Type} (m : M α) (s : State) : Except Exn α := (m s).1

/-- The state in which the middlewares start: the request `r`, which is `q`, now knows its dispatcher. -/
def State.begin (s : State) (d : DispId) (r : ReqId) (q : Req) : State :=
  { s with reqs := s.reqs.set r { q with dispatcher := some d } }

/-- What middlewares and method do with a request: the outcome and the state in which they leave everything. -/
def inner (W : World) (d : DispId) (r : ReqId) (q : Req) (s : State) : Except Exn Ret × State :=
  chain W (W.disp d).middlewares r (s.begin d r q)

/-- The outcome is a SOAPError with a code and a message: raised, returned, or in a response with a header. -/
inductive IsFault : Except Exn Ret → Str → Str → Val → Prop where
  | raised {c m a} : IsFault (.error (.soapError c m a)) c m Val.none
  | returned {c m a} : IsFault (.ok (.obj (.error c m a))) c m Val.none
  | response {resp c m a} : resp.soapBody = .error c m a → IsFault (.ok (.response resp)) c m resp.soapHeader

/-- Not a SOAPError. -/
def OtherError (e : Exn) : Prop := ∀ c m a, e ≠ .soapError c m a

/-- A log entry. -/
def Event.IsLog : Event → Prop
  | .log _ => True
  | _ => False

/-- The events of at most one call of a hook. -/
def HookCall (hook : Option Hook) (name : Str) (es : List Event) : Prop :=
  match hook with
  | none => es = []
  | some _ => ∃ logs, es = .hook name :: logs ∧ ∀ e ∈ logs, e.IsLog

/-- The program without any hooks. -/
def World.noHooks (W : World) : World := { W with disp := fun d => { W.disp d with hooks := [] } }

/-- The state after noting that a hook is called. -/
def State.called (s : State) (name : Str) : State := { s with trace := s.trace ++ [.hook name] }

/-- What a request hook does: it chooses the request to go on with. -/
inductive Enters (hook : Option Hook) (name : Str) (r : ReqId) (s : State) : Except Exn ReqId × State → Prop where
  | missing : hook = none → Enters hook name r s (.ok r, s)
  | chosen {h r' s'} : hook = some h → (h r none).run' (s.called name) = (.ok (.request r'), s') →
      Enters hook name r s (.ok r', s')
  | wrong {h x s'} : hook = some h → (h r none).run' (s.called name) = (.ok x, s') → (∀ r', x ≠ .request r') →
      Enters hook name r s (.error .typeError, s')
  | raised {h e s'} : hook = some h → (h r none).run' (s.called name) = (.error e, s') →
      Enters hook name r s (.error e, s')

/-- What a response hook does: it chooses the response to send. -/
inductive Responds (hook : Option Hook) (name : Str) (r : ReqId) (resp : Response) (s : State) :
    Except Exn Response × State → Prop where
  | missing : hook = none → Responds hook name r resp s (.ok resp, s)
  | chosen {h resp' s'} : hook = some h → (h r (some resp)).run' (s.called name) = (.ok (.response resp'), s') →
      Responds hook name r resp s (.ok resp', s')
  | wrong {h x s'} : hook = some h → (h r (some resp)).run' (s.called name) = (.ok x, s') →
      (∀ resp', x ≠ .response resp') → Responds hook name r resp s (.error .typeError, s')
  | raised {h e s'} : hook = some h → (h r (some resp)).run' (s.called name) = (.error e, s') →
      Responds hook name r resp s (.error e, s')

/-- `base` between a request hook and a response hook; an exception ends everything. -/
inductive Hooked (hook1 hook2 : Option Hook) (name1 name2 : Str) (base : ReqId → M Response) (r : ReqId) (s : State) :
    Except Exn Response × State → Prop where
  | stopped {e s1} : Enters hook1 name1 r s (.error e, s1) → Hooked hook1 hook2 name1 name2 base r s (.error e, s1)
  | failed {r' s1 e s2} : Enters hook1 name1 r s (.ok r', s1) → base r' s1 = (.error e, s2) →
      Hooked hook1 hook2 name1 name2 base r s (.error e, s2)
  | answered {r' s1 resp s2 x} : Enters hook1 name1 r s (.ok r', s1) → base r' s1 = (.ok resp, s2) →
      Responds hook2 name2 r' resp s2 x → Hooked hook1 hook2 name1 name2 base r s x

/-- A middleware that only passes on the request. -/
def passThrough : Middleware := fun r => .next () r fun
  | .ok v => .ret v
  | .error e => .raise e

/-- A middleware that logs `b` before and `a` after everything inside it. -/
def bracket (b a : Exn) : Middleware := fun r => .log b (.next () r fun
  | .ok v => .log a (.ret v)
  | .error e => .log a (.raise e))

/-- A program that does not call the next middleware. -/
inductive NoNext {α : Type} : Prog Unit α → Prop where
  | ret (a) : NoNext (.ret a)
  | raise (e) : NoNext (.raise e)
  | get {r k} : (∀ q, NoNext (k q)) → NoNext (.get r k)
  | set {r q k} : NoNext k → NoNext (.set r q k)
  | new {q k} : (∀ r, NoNext (k r)) → NoNext (.new q k)
  | log {e k} : NoNext k → NoNext (.log e k)

/-- `Joined sep items s`: `s` consists of the items, joined by the separator; no item contains it. -/
def Joined (sep : Char) (items : List Str) (s : Str) : Prop :=
  items ≠ [] ∧ (∀ i ∈ items, sep ∉ i) ∧ [sep].intercalate items = s

/-- `QueryField item k v`: a non-empty item of a query string that says `k=v` (percent-encoded), or only `k`. -/
def QueryField (item k v : Str) : Prop :=
  item ≠ [] ∧ ∃ name value, '=' ∉ name ∧ ((item = name ∧ value = []) ∨ item = name ++ '=' :: value) ∧
    unquotePlus name = k ∧ unquotePlus value = v

/-- The query string has a field with the name `k`. -/
def HasKey (qs k : Str) : Prop := ∃ items, Joined '&' items qs ∧ ∃ item ∈ items, ∃ v, QueryField item k v

/-- The first field with the name `k` says `k=v`. -/
def FirstValue (qs k v : Str) : Prop :=
  ∃ items item, Joined '&' items qs ∧ First (fun i => ∃ v, QueryField i k v) items item ∧ QueryField item k v

/-- The query string of a request. -/
def Req.query (q : Req) : Str := (q.environ py"QUERY_STRING").getD []

/-- A GET request for the WSDL. -/
def AsksWsdl (q : Req) : Prop :=
  q.environ py"REQUEST_METHOD" = some py"GET" ∧ (HasKey q.query py"wsdl" ∨ HasKey q.query py"singleWsdl")

/-- A GET request for a schema. -/
def AsksXsd (q : Req) : Prop :=
  q.environ py"REQUEST_METHOD" = some py"GET" ∧ HasKey q.query py"xsd" ∧
    ¬ HasKey q.query py"wsdl" ∧ ¬ HasKey q.query py"singleWsdl"

/-- A POST request. -/
def IsPost (q : Req) : Prop := q.environ py"REQUEST_METHOD" = some py"POST"

/-- A text that can be written in an XML document. -/
def XmlOk (s : Str) : Prop := ∀ c ∈ s, xmlChar c = true

/-- An element with a text. -/
def textElem (ns : Option Str) (name text : Str) : Xml := .elem ⟨ns, name⟩ [] (some text) []

/-- The code of faults that the sender of the request is to blame for: `Client` in SOAP 1.1, `Sender` in SOAP 1.2. -/
def clientCode : Version → Str
  | .soap11 => py"Client"
  | .soap12 => py"ns0:Sender"

/-- The code of faults that the server is to blame for: `Server` in SOAP 1.1, `Receiver` in SOAP 1.2. -/
def serverCode : Version → Str
  | .soap11 => py"Server"
  | .soap12 => py"ns0:Receiver"

/-- The fault envelope of SOAP 1.1 and 1.2 with a code, a message and possibly an actor. -/
def faultDoc (v : Version) (code message : Str) (actor : Option Str) : Xml :=
  match v with
  | .soap11 =>
    let ns := some py"http://schemas.xmlsoap.org/soap/envelope/"
    .elem ⟨ns, py"Envelope"⟩ [] none [.elem ⟨ns, py"Body"⟩ [] none [.elem ⟨ns, py"Fault"⟩ [] none
      ([textElem none py"faultcode" code, textElem none py"faultstring" message] ++
        actor.toList.map (textElem none py"faultactor"))]]
  | .soap12 =>
    let ns := some py"http://www.w3.org/2003/05/soap-envelope"
    .elem ⟨ns, py"Envelope"⟩ [] none [.elem ⟨ns, py"Body"⟩ [] none [.elem ⟨ns, py"Fault"⟩ [] none
      ([.elem ⟨ns, py"Code"⟩ [] none [textElem ns py"Value" code],
        .elem ⟨ns, py"Reason"⟩ [] none
          [.elem ⟨ns, py"Text"⟩ [(⟨some py"http://www.w3.org/XML/1998/namespace", py"lang"⟩, py"en")] (some message) []]] ++
        actor.toList.map (textElem ns py"Role"))]]

end Soapfish
