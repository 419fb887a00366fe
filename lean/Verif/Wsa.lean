import Verif.Dispatch
/-
WS-Addressing headers (soapfish/wsa.py).
-/
namespace Soapfish

/-- A String field of the addressing namespace. -/
def wsaField (name : Str) (tagname : Option Str) (required : Bool := true) : Field :=
  { name := name, kind := .element, type := .simple (.string {}), tagname := tagname, nspace := some nsWsa,
    required := required }

/-- `wsa.ReplyTo` (soapfish/wsa.py:13-14) -/
def wsaReplyTo : List Field := [wsaField py"Address" (some py"Address")]

/-- `wsa.Header` (soapfish/wsa.py:17-22); `replyTo` is the class ReplyTo. -/
def wsaHeader (replyTo : ClsId) : List Field := [
  wsaField py"Action" (some py"Action"),
  wsaField py"MessageID" (some py"MessageID"),
  wsaField py"To" (some py"To"),
  { name := py"ReplyTo", kind := .element, type := .complex replyTo, tagname := some py"ReplyTo", nspace := some nsWsa,
    required := false },
  wsaField py"RelatesTo" none false]

/-- `wsa.ANONYMOUS` (soapfish/wsa.py:9) -/
def wsaAnonymous : Str := py"http://www.w3.org/2005/08/addressing/anonymous"

/-- `value + 'Response'` -/
def plusResponse : Val → Except Exn Val
  | .atom (.str a) => .ok (.atom (.str (a ++ py"Response")))
  | _ => .error .typeError

/-- The part of `fill_header` with a source (soapfish/wsa.py:39-41). -/
def fillFrom (T : Table) (nw : ClsId → Except Exn Val) (dst src : Val) : Except Exn Val := do
  let a ← src.getA py"Action"
  let a ← plusResponse a
  let dst ← setAttr T nw dst py"Action" a
  let i ← src.getA py"MessageID"
  setAttr T nw dst py"RelatesTo" i

/-- `fill_header` (soapfish/wsa.py:36-43); `uid` is the text of `uuid.uuid1()`.  Instances count as true. -/
def fillHeader (T : Table) (nw : ClsId → Except Exn Val) (dst src : Val) (uid : Str) : Except Exn Val := do
  let dst ← if src.isNone then .ok dst else fillFrom T nw dst src
  let dst ← setAttr T nw dst py"MessageID" (.atom (.str uid))
  setAttr T nw dst py"To" (.atom (.str wsaAnonymous))

end Soapfish
