import Verif.Generate
/-
Whole documents: `ComplexType.xml` and `ComplexType.parsexml` with texts and validation (soapfish/xsd.py:996-1017), and the
class `Document` (soapfish/xsd.py:1033-1057).
-/
namespace Soapfish

/-- What lxml does: `read` is `etree.fromstring` (`none`: XMLSyntaxError), `write` is `etree.tostring`, `schema` is
`etree.XMLSchema`: an exception, or which documents are valid. -/
structure Lxml where
  read : Str → Option Xml
  write : Xml → Str
  schema : Xml → Except Exn (Xml → Bool)

/-- The argument `schema` of `parsexml`: None, an `etree.XMLSchema` object, or a schema object of the program. -/
inductive SchemaArg where
  | absent
  | object (valid : Xml → Bool)
  | program (s : GSchema)

/-- The `etree.XMLSchema` object that `parsexml` uses (soapfish/xsd.py:998-1003). -/
def schemaArg (L : Lxml) (v : Version) (D : Nat) : SchemaArg → Except Exn (Option (Xml → Bool))
  | .absent => .ok none
  | .object valid => .ok (some valid)
  | .program s => do
    let x ← generateSchema v D s
    let valid ← L.schema x
    .ok (some valid)

/-- `etree.fromstring(xml)` with a parser that validates, or without one (soapfish/xsd.py:999, 1004-1006); a document that is
not valid is a syntax error for lxml. -/
def readChecked (L : Lxml) (valid : Option (Xml → Bool)) (text : Str) : Except Exn Xml :=
  match L.read text with
  | none => .error .xmlSyntaxError
  | some x =>
    match valid with
    | none => .ok x
    | some valid => if valid x then .ok x else .error .xmlSyntaxError

/-- `cls.parsexml(xml, schema)` (soapfish/xsd.py:996-1007) -/
def parsexml (L : Lxml) (v : Version) (D : Nat) (T : Table) (N n : Nat) (c : ClsId) (text : Str) (schema : SchemaArg) :
    Except Exn Val := do
  let valid ← schemaArg L v D schema
  let x ← readChecked L valid text
  parseCls T N n c x

/-- `schema.assertValid(xmlelement)`, if there is a schema (soapfish/xsd.py:1014-1015). -/
def assertValid (schema : Option (Xml → Bool)) (x : Xml) : Except Exn Unit :=
  match schema with
  | none => .ok ()
  | some valid => raiseIf (!valid x) .documentInvalid

/-- `instance.xml(tagname, namespace, elementFormDefault, schema)` (soapfish/xsd.py:1009-1016); here the schema must be an
`etree.XMLSchema` object. -/
def xmlChecked (L : Lxml) (T : Table) (n : Nat) (o : Val) (tagname : Str) (ns : Option Str) (q : Bool)
    (schema : Option (Xml → Bool)) : Except Exn Str := do
  let x ← toXml T n o tagname ns q
  assertValid schema x
  .ok (L.write x)

/-! ### Documents -/

/-- `field.render(mockelement, field._name, instance, self.NAMESPACE)`: the elements that are appended, one after the other.
The name is that of the attribute in Python, except that a ListElement uses its tag name; there is no namespace, and no
`elementFormDefault` (soapfish/xsd.py:1049). -/
def documentElements (T : Table) (rc : RenderCls) (f : Field) (v : Val) : Except Exn (List Xml) :=
  match f.kind with
  | .list => do
    let o ← renderList rc f v none false
    .ok o.kids
  | .classNamed => do
    let o ← renderNamed T rc f v
    .ok o.kids
  | _ =>
    if v.isNone then .ok []
    else do
      let x ← renderChild rc f f.name v none false
      .ok [x]

/-- `Document.render` (soapfish/xsd.py:1045-1050).  The mock element keeps the element that is appended last (lines
1038-1043); without one, `etree.tostring(None)` is a TypeError. -/
def documentRender (L : Lxml) (T : Table) (n : Nat) (o : Val) : Except Exn Str :=
  match o with
  | .inst c vals _ =>
    match (T c).elems with
    | [] => .error .indexError
    | f :: _ => do
      let v ← getAttr vals f.name
      let xs ← documentElements T (renderCls T n) f v
      match xs.getLast? with
      | some x => .ok (L.write x)
      | none => .error .typeError
  | _ => .error .attributeError

/-- `Document.parsexml` (soapfish/xsd.py:1053-1057): it returns None and sets an attribute of the class, without `accept`.
The result here is the name of this attribute and its new value.  For a ListElement the attribute of the class is the
ListElement itself, which has no `append`. -/
def documentParse (L : Lxml) (T : Table) (N n : Nat) (c : ClsId) (text : Str) : Except Exn (Str × Val) :=
  match (T c).elems with
  | [] => .error .indexError
  | f :: _ => do
    let x ← readChecked L none text
    evaluate (newInst T N) f.type
    if f.kind = .list then do
      let _ ← (if x.attr qNil ≠ none ∧ x.attr qNil ≠ some [] then .ok .nil else parseType (parseCls T N n) f.type x)
      .error .attributeError
    else do
      let v ← (if x.attr qNil = some py"true" then .ok .nil else parseType (parseCls T N n) f.type x)
      .ok (f.name, v)

end Soapfish
