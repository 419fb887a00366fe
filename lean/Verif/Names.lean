import Verif.Http
/-
Names in generated code (soapfish/utils.py:40-45, 82-154).  Letter case is changed for ASCII letters only.
-/
namespace Soapfish

/-- `keyword.kwlist` of CPython 3.12 -/
def kwlist : List Str := [
  py"False", py"None", py"True", py"and", py"as", py"assert", py"async", py"await", py"break", py"class",
  py"continue", py"def", py"del", py"elif", py"else", py"except", py"finally", py"for", py"from", py"global",
  py"if", py"import", py"in", py"is", py"lambda", py"nonlocal", py"not", py"or", py"pass", py"raise",
  py"return", py"try", py"while", py"with", py"yield"]

/-- `capitalize` (soapfish/utils.py:86-87) -/
def capitalize : Str → Except Exn Str
  | c :: cs => .ok (upperC c :: cs)
  | [] => .error .indexError

/-- `fix_keyword` (soapfish/utils.py:157) -/
def fixKeyword (s : Str) : Str := if s ∈ kwlist then '_' :: s else s

/-- `use` (soapfish/utils.py:88-96); the members of `Use` are equal to their texts. -/
def useText (value : Str) : Except Exn Str :=
  if value = py"optional" then .ok py"xsd.Use.OPTIONAL"
  else if value = py"required" then .ok py"xsd.Use.REQUIRED"
  else if value = py"prohibited" then .ok py"xsd.Use.PROHIBITED"
  else .error .valueError

/-- What `get_type` looks at: an attribute or element of a schema document, an extension or restriction, a text, or
something else. -/
inductive TypeSource where
  | item (ref type : Option Str) (simpleType : Bool)
  | derived (base : Option Str)
  | text (s : Str)
  | other

/-- The qualified name `get_type` starts from (soapfish/utils.py:116-131); an empty text counts as missing. -/
def TypeSource.qname : TypeSource → Except Exn Str
  | .item (some (c :: cs)) _ _ => .ok (c :: cs)
  | .item _ (some (c :: cs)) _ => .ok (c :: cs)
  | .item _ _ true => .error .notImplemented
  | .derived (some (c :: cs)) => .ok (c :: cs)
  | .text (c :: cs) => .ok (c :: cs)
  | _ => .error .valueError

/-- `qname.split(':')` into prefix and name (soapfish/utils.py:133-136). -/
def splitQName (q : Str) : Except Exn (Option Str × Str) :=
  match splitOn ':' q with
  | [n] => .ok (none, n)
  | [p, n] => .ok (some p, n)
  | _ => .error .valueError

/-- The code for a type (soapfish/utils.py:137-144). -/
def typeCode (xsdNamespaces : List (Option Str)) (known : Option (List Str)) (p : Option Str) (name : Str) : Str :=
  if p ∈ xsdNamespaces then py"xsd." ++ name
  else if name ∈ known.getD [] then name
  else py"__name__ + '." ++ name ++ ['\'']

/-- `get_type` (soapfish/utils.py:114-144) -/
def getType (xsdNamespaces : List (Option Str)) (known : Option (List Str)) (x : TypeSource) : Except Exn Str := do
  let q ← x.qname
  let (p, n) ← splitQName q
  let name ← capitalize n
  .ok (typeCode xsdNamespaces known p name)

end Soapfish
