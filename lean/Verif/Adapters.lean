import Verif.Dispatch
/-
The WSGI, Django and Flask adapters (soapfish/soap_dispatch.py:249-260, soapfish/django_.py, soapfish/flask_.py) and
the status text (soapfish/core.py:25-28).
-/
namespace Soapfish

/-- `http.client.responses` of CPython 3.12 -/
def httpResponses : List (Nat × Str) := [
  (100, py"Continue"), (101, py"Switching Protocols"), (102, py"Processing"),
  (103, py"Early Hints"), (200, py"OK"), (201, py"Created"),
  (202, py"Accepted"), (203, py"Non-Authoritative Information"), (204, py"No Content"),
  (205, py"Reset Content"), (206, py"Partial Content"), (207, py"Multi-Status"),
  (208, py"Already Reported"), (226, py"IM Used"), (300, py"Multiple Choices"),
  (301, py"Moved Permanently"), (302, py"Found"), (303, py"See Other"),
  (304, py"Not Modified"), (305, py"Use Proxy"), (307, py"Temporary Redirect"),
  (308, py"Permanent Redirect"), (400, py"Bad Request"), (401, py"Unauthorized"),
  (402, py"Payment Required"), (403, py"Forbidden"), (404, py"Not Found"),
  (405, py"Method Not Allowed"), (406, py"Not Acceptable"), (407, py"Proxy Authentication Required"),
  (408, py"Request Timeout"), (409, py"Conflict"), (410, py"Gone"),
  (411, py"Length Required"), (412, py"Precondition Failed"), (413, py"Request Entity Too Large"),
  (414, py"Request-URI Too Long"), (415, py"Unsupported Media Type"), (416, py"Requested Range Not Satisfiable"),
  (417, py"Expectation Failed"), (418, py"I'm a Teapot"), (421, py"Misdirected Request"),
  (422, py"Unprocessable Entity"), (423, py"Locked"), (424, py"Failed Dependency"),
  (425, py"Too Early"), (426, py"Upgrade Required"), (428, py"Precondition Required"),
  (429, py"Too Many Requests"), (431, py"Request Header Fields Too Large"), (451, py"Unavailable For Legal Reasons"),
  (500, py"Internal Server Error"), (501, py"Not Implemented"), (502, py"Bad Gateway"),
  (503, py"Service Unavailable"), (504, py"Gateway Timeout"), (505, py"HTTP Version Not Supported"),
  (506, py"Variant Also Negotiates"), (507, py"Insufficient Storage"), (508, py"Loop Detected"),
  (510, py"Not Extended"), (511, py"Network Authentication Required")]

/-- `SOAPResponse.http_status_text` (soapfish/core.py:25-28); a code without a text gives the text of None. -/
def statusText (code : Nat) : Str :=
  natStr code ++ ' ' :: ((httpResponses.find? fun p => p.1 = code).map (·.2)).getD py"None"

/-- `stream.read(n)`: a negative number reads everything. -/
def readStream (body : Bytes) (n : Int) : Bytes := if n < 0 then body else body.take n.toNat

/-- `int(req_env.get('CONTENT_LENGTH', '') or 0)` (soapfish/soap_dispatch.py:254) -/
def contentLength (env : Env) : Except Exn Int :=
  match (env py"CONTENT_LENGTH").getD [] with
  | [] => .ok 0
  | s => pyInt s

/-- What the WSGI server gets: the arguments of `start_response` and the chunks of the body. -/
structure WsgiAnswer where
  status : Str
  headers : Dict Str
  chunks : List Content

def wsgiAnswer (r : Response) : WsgiAnswer := ⟨statusText r.status, r.httpHeaders, [r.content]⟩

/-- `WsgiSoapApplication.__call__` (soapfish/soap_dispatch.py:253-260); `body` is what the stream `wsgi.input` holds. -/
def wsgiCall (W : World) (d : DispId) (env : Env) (body : Bytes) : M WsgiAnswer := do
  let n ← M.lift (contentLength env)
  let r ← newReq ⟨env, readStream body n, Val.none, Val.none, none, none⟩
  let resp ← dispatch W d r
  M.pure (wsgiAnswer resp)

/-- Assigning a header of a Django or Werkzeug response: names are compared without regard to case, the new spelling
replaces the old one. -/
def setHeader (k v : Str) : Dict Str → Dict Str
  | [] => [(k, v)]
  | (k', v') :: r =>
    if lower k' = lower k then (k, v) :: r.filter (fun p => lower p.1 ≠ lower k) else (k', v') :: setHeader k v r

/-- The HTTP response of a framework. -/
structure FrameworkAnswer where
  status : Nat
  headers : Dict Str
  content : Content

/-- Filling the framework's response, which begins with headers of its own (soapfish/django_.py:29-33,
soapfish/flask_.py:16-20). -/
def frameworkAnswer (initial : Dict Str) (r : Response) : FrameworkAnswer :=
  ⟨r.status, r.httpHeaders.foldl (fun h p => setHeader p.1 p.2 h) initial, r.content⟩

/-- `django_dispatch` (soapfish/django_.py:23-33).  The dispatcher is constructed for every request; its construction is
not modelled, `d` is the result. -/
def djangoDispatch (W : World) (d : DispId) (initial : Dict Str) (environ : Dict Str) (body : Bytes) :
    M FrameworkAnswer := do
  let r ← newReq ⟨djangoEnv environ, body, Val.none, Val.none, none, none⟩
  let resp ← dispatch W d r
  M.pure (frameworkAnswer initial resp)

/-- `flask_dispatch` (soapfish/flask_.py:10-20) -/
def flaskDispatch (W : World) (d : DispId) (initial : Dict Str) (environ : Dict Str) (body : Bytes) :
    M FrameworkAnswer := do
  let r ← newReq ⟨environ.env, body, Val.none, Val.none, none, none⟩
  let resp ← dispatch W d r
  M.pure (frameworkAnswer initial resp)

end Soapfish
