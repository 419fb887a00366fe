import Verif.Simple
import Verif.Xml
/-
Complex types: fields, classes, construction, assignment, rendering, parsing (soapfish/xsd.py:536-1022).

Classes are numbered and described by a table `Table = ClsId → Cls`; a class body may therefore refer to any class,
including itself.  Python's recursion limit appears as an explicit depth argument: running out of depth is
`RecursionError`.
-/
namespace Soapfish

abbrev ClsId := Nat

/-- Python values a field can hold.  `nil` is `xsd.NIL` (soapfish/xsd.py:49); `list typed items` a `TypedList`
(typed) or a plain list; `inst c fields xml` an instance of class `c` with its attribute dictionary and the document
element it was parsed from (`_xmlelement`), if any.  Identity and sharing of objects is not part of this model (see
`Verif/Heap.lean`). -/
inductive Val where
  | nil
  | atom (a : Atom)
  | list (typed : Bool) (items : List Val)
  | inst (cls : ClsId) (fields : List (Str × Val)) (xml : Option Xml)

/-- Python `None`. -/
abbrev Val.none : Val := .atom .none

/-- Is this `None`? -/
def Val.isNone : Val → Bool
  | .atom .none => true
  | _ => false

/-- Is this `xsd.NIL`? -/
def Val.isNil : Val → Bool
  | .nil => true
  | _ => false

/-- A value where a simple type expects one: lists and instances are just objects of other classes, and so is NIL. -/
def Val.toAtom : Val → Atom
  | .atom a => a
  | _ => .other 0

/-- `maxOccurs` of a ListElement: an int or `xsd.UNBOUNDED`. -/
inductive Bound where
  | int (n : Int)
  | unbounded
  deriving DecidableEq, Repr

/-- The type of a field: a simple type object, a class (passed as class, instance or import path), or `AnyType`
(soapfish/xsd.py:1081). -/
inductive FType where
  | simple (s : SType)
  | complex (c : ClsId)
  | any

/-- The descriptor classes (soapfish/xsd.py:536, 631, 654, 695, 742, 767). -/
inductive Kind where
  | element | classNamed | attribute | ref | content | list
  deriving DecidableEq, Repr

/-- A descriptor after class creation (`nspace` is its `namespace`; `_name` set by soapfish/xsd.py:835-841).  `required` is the truth of
`_minOccurs` of an Element or Attribute; `minOccurs`, `maxOccurs` belong to ListElement. -/
structure Field where
  name : Str
  kind : Kind
  type : FType
  tagname : Option Str := none
  nillable : Bool := false
  default : Val := .atom .none
  nspace : Option Str := none
  required : Bool := true
  minOccurs : Option Int := none
  maxOccurs : Option Bound := none

/-- The part of a Schema object that matters for instances (soapfish/xsd.py:1115-1116). -/
structure SchemaInfo where
  targetNamespace : Option Str
  qualified : Bool
  deriving DecidableEq, Repr

/-- A ComplexType class: `fields` is `_meta.all` (soapfish/xsd.py:847), `choice` says `INDICATOR` is Choice, `mro` the
class and its bases (for `isinstance`), `isGroup` derives from Group, `header` is `soap11.Header` or `soap12.Header`,
which override `accept` and `render` (soapfish/soap11.py:38-46). -/
structure Cls where
  name : Str
  fields : List Field
  mro : List ClsId
  choice : Bool := false
  schema : Option SchemaInfo := none
  isGroup : Bool := false
  header : Bool := false

abbrev Table := ClsId → Cls

/-- `field.tagname or field._name` (soapfish/xsd.py:924) -/
def Field.tag (f : Field) : Str :=
  match f.tagname with
  | some (c :: cs) => c :: cs
  | _ => f.name

def Kind.isField : Kind → Bool
  | .element | .classNamed | .list => true
  | _ => false

def Kind.isGroup : Kind → Bool
  | .ref | .content => true
  | _ => false

/-- `_meta.fields`, `_meta.attributes`, `_meta.groups` (soapfish/xsd.py:834-845), each in creation order. -/
def Cls.elems (c : Cls) : List Field := c.fields.filter (·.kind.isField)
def Cls.attrs (c : Cls) : List Field := c.fields.filter (·.kind = .attribute)
def Cls.groups (c : Cls) : List Field := c.fields.filter (·.kind.isGroup)

/-! ### Loops that stop at the first exception -/

def mapE {α β} (f : α → Except Exn β) : List α → Except Exn (List β)
  | [] => .ok []
  | a :: as => do
    let b ← f a
    let bs ← mapE f as
    .ok (b :: bs)

def foldE {α σ} (f : σ → α → Except Exn σ) : σ → List α → Except Exn σ
  | s, [] => .ok s
  | s, a :: as => do
    let s ← f s a
    foldE f s as

/-! ### Accepting values -/

/-- `isinstance(value, cls)` for an instance of class `c'`. -/
def isSub (T : Table) (c' c : ClsId) : Bool := (T c').mro.contains c

/-- `ComplexType.accept` (soapfish/xsd.py:907-914), or `Header.accept` (soapfish/soap11.py:39-40). -/
def acceptCls (T : Table) (c : ClsId) (v : Val) : Except Exn Val :=
  if (T c).header then .ok v
  else match v with
    | .atom .none => .ok (.atom .none)
    | .inst c' fs x => if isSub T c' c then .ok (.inst c' fs x) else .error .valueError
    | _ => .error .valueError

/-- `_type.accept(value)` -/
def FType.accept (T : Table) (t : FType) (v : Val) : Except Exn Val :=
  match t with
  | .simple s => (s.accept v.toAtom).map .atom
  | .complex c => acceptCls T c v
  | .any => .error .notImplemented

/-- `_evaluate_type` (soapfish/xsd.py:572-579): instantiates the field's class; `nw` is construction of an instance.
The result is cached in the code, so on success later evaluations change nothing. -/
def evaluate (nw : ClsId → Except Exn Val) (t : FType) : Except Exn Unit :=
  match t with
  | .complex c => (nw c).map (fun _ => ())
  | _ => .ok ()

/-- NIL only where nillable, other values through the type (soapfish/xsd.py:596-602, 756-761). -/
def Field.acceptItem (T : Table) (f : Field) (v : Val) : Except Exn Val :=
  if v.isNil then (if f.nillable then .ok .nil else .error .valueError)
  else f.type.accept T v

/-- `Element.accept` (soapfish/xsd.py:593-602), `ListElement.accept` (soapfish/xsd.py:789-790). -/
def Field.accept (T : Table) (nw : ClsId → Except Exn Val) (f : Field) (v : Val) : Except Exn Val :=
  if f.kind = .list then .ok v
  else do
    evaluate nw f.type
    f.acceptItem T v

/-- `empty_value` (soapfish/xsd.py:581-588, 721-723, 745-746, 792-793).  A Ref copies the prototype instance of its
group; here the copy is a new instance (sharing of its lists: `Verif/Heap.lean`). A Ref to a simple type copies the
type object itself. -/
def emptyValue (nw : ClsId → Except Exn Val) (f : Field) : Except Exn Val :=
  match f.kind with
  | .list => .ok (.list true [])
  | .content => .ok .none
  | .ref =>
    match f.type with
    | .complex c => nw c
    | _ => .ok (.atom (.other 1))
  | _ => .ok f.default

/-- `ComplexType.__new__` (soapfish/xsd.py:868-872) with `n` levels of recursion left. -/
def newInst (T : Table) : Nat → ClsId → Except Exn Val
  | 0, _ => .error .recursionError
  | n + 1, c => do
    let fs ← mapE (fun f => do
      let v ← emptyValue (newInst T n) f
      let w ← f.accept T (newInst T n) v
      .ok (f.name, w)) (T c).fields
    .ok (.inst c fs Option.none)

/-- `_find_field` (soapfish/xsd.py:929-935) -/
def findField (fs : List Field) (name : Str) : Except Exn Field :=
  match fs with
  | [] => .error .valueError
  | f :: r => if f.name = name then .ok f else findField r name

/-- `__setattr__` (soapfish/xsd.py:878-886) for names other than `_xmlelement`. -/
def setAttr (T : Table) (nw : ClsId → Except Exn Val) (v : Val) (name : Str) (w : Val) : Except Exn Val :=
  match v with
  | .inst c fs x => do
    let f ← findField (T c).fields name
    let w ← f.accept T nw w
    .ok (.inst c (Dict.set fs name w) x)
  | _ => .error .attributeError

/-- `cls(**kwargs)` (soapfish/xsd.py:868-876) -/
def construct (T : Table) (n : Nat) (c : ClsId) (kwargs : List (Str × Val)) : Except Exn Val := do
  let v ← newInst T n c
  foldE (fun v p => setAttr T (newInst T n) v p.1 p.2) v kwargs

/-! ### Typed lists -/

/-- `n > bound` -/
def Bound.exceeded : Bound → Int → Bool
  | .int m, n => n > m
  | .unbounded, _ => false

/-- `TypedList.append` (soapfish/xsd.py:754-764) -/
def typedAppend (T : Table) (nw : ClsId → Except Exn Val) (f : Field) (items : List Val) (v : Val) :
    Except Exn (List Val) := do
  evaluate nw f.type
  let w ← f.acceptItem T v
  ifGiven f.maxOccurs (fun m => raiseIf (m.exceeded (items.length + 1)) .valueError)
  .ok (items ++ [w])

/-! ### Rendering -/

/-- What rendering adds to the parent element: attribute settings in order, appended children.  The code mutates the
parent; here the additions are returned and put together by the caller. -/
structure Out where
  attrs : List (QName × Str) := []
  kids : List Xml := []

def Out.append (a b : Out) : Out := ⟨a.attrs ++ b.attrs, a.kids ++ b.kids⟩

/-- Renders an instance for a class: `type class → value → namespace → qualified → additions`. -/
abbrev RenderCls := ClsId → Val → Option Str → Bool → Except Exn Out

/-- Assigning an optional text to an element (soapfish/xsd.py:109). -/
def optText : Option Str → Except Exn (Option Str)
  | none => .ok none
  | some s => (xmlText s).map some

/-- Attributes a simple type sets on its element: LanguageString sets `xml:lang` (soapfish/soap12.py:39-43). -/
def SType.extraAttrs : SType → List (QName × Str)
  | .lang => [(qLang, py"en")]
  | _ => []

/-- `_type.render(xmlelement, value, ...)`: additions and text of the new element.  Simple types set the text
(soapfish/xsd.py:108-109). `AnyType` inherits a `render`
with another signature. -/
def renderType (rc : RenderCls) (t : FType) (v : Val) (ns : Option Str) (q : Bool) :
    Except Exn (Out × Option Str) :=
  match t with
  | .simple s => do
    let txt ← s.xmlvalue v.toAtom
    let txt ← optText txt
    .ok ({ attrs := s.extraAttrs }, txt)
  | .complex c => do
    let o ← rc c v ns q
    .ok (o, none)
  | .any => .error .typeError

/-- A new element with the given additions. -/
def mkElem (tag : QName) (o : Out) (text : Option Str) : Xml := .elem tag (attrSetAll [] o.attrs) text o.kids

/-- Tag of a child (soapfish/xsd.py:609-612, 803-808). -/
def childTag (f : Field) (loc : Str) (ns : Option Str) (q : Bool) : QName :=
  let ns := match f.nspace with | some n => some n | none => ns
  if ns ≠ none ∧ q then QName.mk' ns loc else ⟨none, loc⟩

/-- Namespace passed down to the content of a child (soapfish/xsd.py:609-610, 803-804). -/
def childNs (f : Field) (ns : Option Str) : Option Str := match f.nspace with | some n => some n | none => ns

/-- One child element for a value that is not None (soapfish/xsd.py:614-619, 810-816). -/
def renderChild (rc : RenderCls) (f : Field) (loc : Str) (v : Val) (ns : Option Str) (q : Bool) : Except Exn Xml :=
  let tag := childTag f loc ns q
  if v.isNil then .ok (mkElem tag { attrs := [(qNil, py"true")] } none)
  else do
    let (o, t) ← renderType rc f.type v (childNs f ns) q
    .ok (mkElem tag o t)

/-- The items a `for` loop over the value of a list field yields; a str is iterated by characters, other objects are
not iterable. -/
def listItems : Val → Except Exn (List Val)
  | .list _ items => .ok items
  | .atom (.str s) => .ok (s.map (fun c => .atom (.str [c])))
  | _ => .error .typeError

/-- `self._minOccurs and len(items) < self._minOccurs` -/
def minViolated (m : Option Int) (n : Nat) : Bool :=
  match m with
  | some k => k != 0 && (n : Int) < k
  | none => false

/-- `self._maxOccurs and len(items) > self._maxOccurs` -/
def maxViolated (m : Option Bound) (n : Nat) : Bool :=
  match m with
  | some (.int k) => k != 0 && (n : Int) > k
  | _ => false

/-- The element name of a NamedType: a missing one prints as `None` inside a qualified tag and is a TypeError
otherwise. -/
def namedLoc (name : Val) (ns : Option Str) : Except Exn Str :=
  match name with
  | .atom (.str n) => .ok n
  | _ => if ns = none ∨ ns = some [] then .error .typeError else .ok py"None"

/-- `ClassNamedElement.render` (soapfish/xsd.py:637-651). -/
def renderNamed (T : Table) (rc : RenderCls) (f : Field) (v : Val) : Except Exn Out :=
  match v with
  | .atom .none => .ok {}
  | .inst _ fs _ =>
    match Dict.get? fs py"name", Dict.get? fs py"value" with
    | some name, some value =>
      match value with
      | .atom .none => .ok {}
      | .inst c' fs' x =>
        match (T c').schema, f.type with
        | some s, .complex c => do
          let loc ← namedLoc name s.targetNamespace
          let o ← rc c (.inst c' fs' x) s.targetNamespace s.qualified
          .ok { kids := [mkElem (QName.mk' s.targetNamespace loc) o none] }
        | _, _ => .error .attributeError
      | _ => .error .attributeError
    | _, _ => .error .attributeError
  | _ => .error .attributeError

/-- An attribute value must be text. -/
def attrText : Option Str → Except Exn Str
  | some t => xmlText t
  | none => .error .typeError

/-- `Attribute.render` (soapfish/xsd.py:670-684) -/
def renderAttr (f : Field) (v : Val) : Except Exn Out :=
  if v.isNone then (if f.required then .error .valueError else .ok {})
  else if v.isNil then (if f.nillable then .ok { attrs := [(⟨none, f.tag⟩, py"nil")] } else .error .valueError)
  else match f.type with
    | .simple s => do
      let t ← s.xmlvalue v.toAtom
      let t ← attrText t
      .ok { attrs := [(⟨none, f.tag⟩, t)] }
    | _ => .error .attributeError

/-- `isinstance(value, Group)` -/
def Val.isGroupInst (T : Table) : Val → Bool
  | .inst c' _ _ => (T c').isGroup
  | _ => false

/-- `Ref.render`, also used by Content (soapfish/xsd.py:725-739). -/
def renderRef (T : Table) (rc : RenderCls) (f : Field) (v : Val) (ns : Option Str) (q : Bool) : Except Exn Out :=
  match v with
  | .atom .none => .error .attributeError        -- `self._required` does not exist
  | v => do
    let (o, t) ← renderType rc f.type v ns q
    .ok (if v.isGroupInst T then o else { kids := [mkElem (QName.mk' ns f.tag) o t] })

/-- `ListElement.render` (soapfish/xsd.py:795-816); its `tagname` is a mandatory argument. -/
def renderList (rc : RenderCls) (f : Field) (v : Val) (ns : Option Str) (q : Bool) : Except Exn Out := do
  let items ← listItems v
  raiseIf (minViolated f.minOccurs items.length) .valueError
  raiseIf (maxViolated f.maxOccurs items.length) .valueError
  let kids ← mapE (fun v => renderChild rc f f.tag v ns q) items
  .ok { kids := kids }

/-- `field.render(...)` for every kind of field (soapfish/xsd.py:604-619 for Element). -/
def renderField (T : Table) (rc : RenderCls) (f : Field) (v : Val) (ns : Option Str) (q : Bool) : Except Exn Out :=
  match f.kind with
  | .element =>
    if v.isNone then .ok {}
    else do
      let k ← renderChild rc f f.tag v ns q
      .ok { kids := [k] }
  | .classNamed => renderNamed T rc f v
  | .attribute => renderAttr f v
  | .ref | .content => renderRef T rc f v ns q
  | .list => renderList rc f v ns q

/-- `getattr(instance, name)` -/
def getAttr (vals : List (Str × Val)) (name : Str) : Except Exn Val :=
  match Dict.get? vals name with
  | some v => .ok v
  | none => .error .attributeError

/-- The loop of `ComplexType.render` (soapfish/xsd.py:921-927) over `instance._meta.all`. -/
def renderFields (T : Table) (rc : RenderCls) (vals : List (Str × Val)) (ns : Option Str) (q : Bool) :
    List Field → Except Exn Out
  | [] => .ok {}
  | f :: fs => do
    let v ← getAttr vals f.name
    let o ← renderField T rc f v ns q
    let os ← renderFields T rc vals ns q fs
    .ok (o.append os)

/-- The namespace in effect inside an instance of type `c` (soapfish/xsd.py:919-920). -/
def innerNs (T : Table) (c : ClsId) (ns : Option Str) : Option Str :=
  match (T c).schema with
  | some s => s.targetNamespace
  | none => ns

/-- `ComplexType.render` (soapfish/xsd.py:916-927); `c` is the class of the type object, the fields are those of the
instance.  `soap11.Header.render` (soapfish/soap11.py:45-46) first needs the instance to have a schema. -/
def renderCls (T : Table) : Nat → RenderCls
  | 0, _, _, _, _ => .error .recursionError
  | n + 1, c, v, ns, q =>
    match v with
    | .inst c' vals _ =>
      if (T c).header ∧ (T c').schema = none then .error .attributeError
      else
        let ns := if (T c).header then innerNs T c (innerNs T c' ns) else innerNs T c ns
        renderFields T (renderCls T n) vals ns q (T c').fields
    | .atom .none => if (T c).header then .error .attributeError else .ok {}
    | _ => .error .attributeError

/-- `instance.xml(tagname, namespace, elementFormDefault)` before serialisation (soapfish/xsd.py:1009-1013). -/
def toXml (T : Table) (n : Nat) (v : Val) (tagname : Str) (ns : Option Str) (q : Bool) : Except Exn Xml :=
  match v with
  | .inst c _ _ => do
    let o ← renderCls T n c v ns q
    .ok (mkElem (QName.mk' ns tagname) o none)
  | _ => .error .attributeError

/-! ### Parsing -/

abbrev ParseCls := ClsId → Xml → Except Exn Val

/-- Does the tag belong to the field (soapfish/xsd.py:951-952)?  The namespace is ignored. -/
def Field.matchesTag (f : Field) (q : QName) : Bool := q.loc = f.name || some q.loc = f.tagname

/-- `_find_subelement` (soapfish/xsd.py:944-956): comments never match, the tag of a processing instruction is not a
text. -/
def findSub (f : Field) : List Xml → Except Exn (List Xml)
  | [] => .ok []
  | .comment :: r => findSub f r
  | .pi :: _ => .error .typeError
  | .elem q a t k :: r => do
    let rest ← findSub f r
    .ok (if f.matchesTag q then .elem q a t k :: rest else rest)

/-- Text of an element as a Python value. -/
def textAtom : Option Str → Atom
  | some s => .str s
  | none => .none

/-- `_type.parse_xmlelement(xmlelement)` (soapfish/xsd.py:111-112 for simple types). -/
def parseType (pc : ParseCls) (t : FType) (x : Xml) : Except Exn Val :=
  match t with
  | .simple s =>
    match x with
    | .elem _ _ text _ => (s.pythonvalue (textAtom text)).map .atom
    | _ => .error .typeError
  | .complex c => pc c x
  | .any => .error .notImplemented

def Xml.attr (x : Xml) (q : QName) : Option Str :=
  match x with
  | .elem _ a _ _ => attrGet a q
  | _ => none

/-- `Element.parse` (soapfish/xsd.py:621-624), also for Ref, Content and ClassNamedElement. -/
def parseElement (T : Table) (nw : ClsId → Except Exn Val) (pc : ParseCls) (f : Field) (inst : Val) (x : Xml) :
    Except Exn Val := do
  evaluate nw f.type
  let v ← (if x.attr qNil = some py"true" then .ok .nil else parseType pc f.type x)
  setAttr T nw inst f.name v

/-- `getattr(instance, name).append(value)` (soapfish/xsd.py:821-822) -/
def appendAttr (T : Table) (nw : ClsId → Except Exn Val) (f : Field) (inst : Val) (v : Val) : Except Exn Val :=
  match inst with
  | .inst c fs xml =>
    match Dict.get? fs f.name with
    | some (.list true items) => do
      let items ← typedAppend T nw f items v
      .ok (.inst c (Dict.set fs f.name (.list true items)) xml)
    | some (.list false items) => .ok (.inst c (Dict.set fs f.name (.list false (items ++ [v]))) xml)
    | _ => .error .attributeError
  | _ => .error .attributeError

/-- `ListElement.parse` (soapfish/xsd.py:818-822) -/
def parseItem (T : Table) (nw : ClsId → Except Exn Val) (pc : ParseCls) (f : Field) (inst : Val) (x : Xml) :
    Except Exn Val := do
  evaluate nw f.type
  let v ← (if x.attr qNil ≠ none ∧ x.attr qNil ≠ some [] then .ok .nil else parseType pc f.type x)
  appendAttr T nw f inst v

/-- The value of an attribute from its text in the document (soapfish/xsd.py:688-691). -/
def attrValue (f : Field) (raw : Option Str) : Except Exn Atom :=
  match f.type with
  | .simple s => s.pythonvalue (match raw with | some t => .str t | none => f.default.toAtom)
  | _ => .error .attributeError

/-- `Attribute.parse` (soapfish/xsd.py:686-692) -/
def parseAttr (T : Table) (nw : ClsId → Except Exn Val) (f : Field) (inst : Val) (x : Xml) : Except Exn Val := do
  evaluate nw f.type
  let v ← attrValue f (x.attr ⟨none, f.name⟩)
  setAttr T nw inst f.name (.atom v)

def parseOne (T : Table) (nw : ClsId → Except Exn Val) (pc : ParseCls) (f : Field) (inst : Val) (x : Xml) :
    Except Exn Val :=
  if f.kind = .list then parseItem T nw pc f inst x else parseElement T nw pc f inst x

def Xml.kids : Xml → List Xml
  | .elem _ _ _ k => k
  | _ => []

/-- The loop over `_meta.fields` of a class that is not a Choice (soapfish/xsd.py:966-974). -/
def parseSeq (T : Table) (nw : ClsId → Except Exn Val) (pc : ParseCls) (x : Xml) (inst : Val) (f : Field) :
    Except Exn Val := do
  let subs ← findSub f x.kids
  foldE (parseOne T nw pc f) inst subs

/-- The loop over `_meta.fields` of a Choice (soapfish/xsd.py:966-976): only the first field that matches the element
itself is parsed, from that element. -/
def parseChoice (T : Table) (nw : ClsId → Except Exn Val) (pc : ParseCls) (x : Xml) (inst : Val) :
    List Field → Except Exn Val
  | [] => .ok inst
  | f :: fs =>
    match x with
    | .elem q _ _ _ => if f.matchesTag q then parseOne T nw pc f inst x else parseChoice T nw pc x inst fs
    | .comment => parseChoice T nw pc x inst fs
    | .pi => .error .typeError

def withXml (v : Val) (x : Xml) : Val :=
  match v with
  | .inst c fs _ => .inst c fs (some x)
  | v => v

/-- `ComplexType.parse_xmlelement` (soapfish/xsd.py:958-981); `N` is the depth available for constructing
instances. -/
def parseCls (T : Table) (N : Nat) : Nat → ParseCls
  | 0, _, _ => .error .recursionError
  | n + 1, c, x => do
    let inst ← newInst T N c
    let inst := withXml inst x
    let inst ← foldE (fun i f => parseAttr T (newInst T N) f i x) inst (T c).attrs
    let inst ← (if (T c).choice then parseChoice T (newInst T N) (parseCls T N n) x inst (T c).elems
      else foldE (parseSeq T (newInst T N) (parseCls T N n) x) inst (T c).elems)
    foldE (fun i f => parseElement T (newInst T N) (parseCls T N n) f i x) inst (T c).groups

end Soapfish
