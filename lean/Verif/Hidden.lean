import Verif.Complex
/-
Fields whose names are those of methods.  An instance has an attribute for each field (soapfish/xsd.py:868-872), and Python finds
it before the method of the same name: `_type.accept(value)`, `_type.parse_xmlelement(element)`, `_type.render(...)`, where `_type` is
an instance of the class of a field, then call None, a list or another value that cannot be called, which raises TypeError.  The class
itself has the descriptor in place of the method.  The functions here are those of `Verif/Complex.lean` with these lookups; the
other names that the library looks up (`_meta`, `_find_field`, `_xmlelement`, `_is_matching_element`, `_find_subelement`,
`_force_elements_type_evalution`, `SCHEMA`, `INDICATOR`, `INHERITANCE`) are not treated.
-/
namespace Soapfish.Hidden

/-- Instances of the class have an attribute of this name for a field (soapfish/xsd.py:868-872). -/
def hides (T : Table) (c : ClsId) (name : Str) : Bool := name ∈ (T c).fields.map (·.name)

/-- `_type.accept(value)` -/
def typeAccept (T : Table) (t : FType) (v : Val) : Except Exn Val :=
  match t with
  | .complex c => if hides T c py"accept" then .error .typeError else acceptCls T c v
  | t => t.accept T v

/-- NIL only where nillable, other values through the type (soapfish/xsd.py:596-602, 756-761). -/
def acceptItem (T : Table) (f : Field) (v : Val) : Except Exn Val :=
  if v.isNil then (if f.nillable then .ok .nil else .error .valueError)
  else typeAccept T f.type v

/-- `Element.accept` (soapfish/xsd.py:593-602), `ListElement.accept` (soapfish/xsd.py:789-790). -/
def accept (T : Table) (nw : ClsId → Except Exn Val) (f : Field) (v : Val) : Except Exn Val :=
  if f.kind = .list then .ok v
  else do
    evaluate nw f.type
    acceptItem T f v

/-- `ComplexType.__new__` (soapfish/xsd.py:868-872) -/
def newInst (T : Table) : Nat → ClsId → Except Exn Val
  | 0, _ => .error .recursionError
  | n + 1, c => do
    let fs ← mapE (fun f => do
      let v ← emptyValue (newInst T n) f
      let w ← accept T (newInst T n) f v
      .ok (f.name, w)) (T c).fields
    .ok (.inst c fs Option.none)

/-- `__setattr__` (soapfish/xsd.py:878-886) -/
def setAttr (T : Table) (nw : ClsId → Except Exn Val) (v : Val) (name : Str) (w : Val) : Except Exn Val :=
  match v with
  | .inst c fs x => do
    let f ← findField (T c).fields name
    let w ← accept T nw f w
    .ok (.inst c (Dict.set fs name w) x)
  | _ => .error .attributeError

/-- `cls(**kwargs)` (soapfish/xsd.py:868-876) -/
def construct (T : Table) (n : Nat) (c : ClsId) (kwargs : List (Str × Val)) : Except Exn Val := do
  let v ← newInst T n c
  foldE (fun v p => setAttr T (newInst T n) v p.1 p.2) v kwargs

/-- `TypedList.append` (soapfish/xsd.py:754-764) -/
def typedAppend (T : Table) (nw : ClsId → Except Exn Val) (f : Field) (items : List Val) (v : Val) :
    Except Exn (List Val) := do
  evaluate nw f.type
  let w ← acceptItem T f v
  ifGiven f.maxOccurs (fun m => raiseIf (m.exceeded (items.length + 1)) .valueError)
  .ok (items ++ [w])

/-- `ComplexType.render` (soapfish/xsd.py:916-927), looked up in an instance of the class. -/
def renderCls (T : Table) : Nat → RenderCls
  | 0, _, _, _, _ => .error .recursionError
  | n + 1, c, v, ns, q =>
    if hides T c py"render" then .error .typeError
    else match v with
      | .inst c' vals _ =>
        if (T c).header ∧ (T c').schema = none then .error .attributeError
        else
          let ns := if (T c).header then innerNs T c (innerNs T c' ns) else innerNs T c ns
          renderFields T (renderCls T n) vals ns q (T c').fields
      | .atom .none => if (T c).header then .error .attributeError else .ok {}
      | _ => .error .attributeError

/-- `instance.xml(tagname, namespace, elementFormDefault)` before serialisation (soapfish/xsd.py:1009-1013). -/
def toXml (T : Table) (n : Nat) (v : Val) (tagname : Str) (ns : Option Str) (q : Bool) : Except Exn Xml :=
  match v with
  | .inst c _ _ =>
    if hides T c py"xml" then .error .typeError
    else do
      let o ← renderCls T n c v ns q
      .ok (mkElem (QName.mk' ns tagname) o none)
  | _ => .error .attributeError

/-- `Element.parse` (soapfish/xsd.py:621-624) -/
def parseElement (T : Table) (nw : ClsId → Except Exn Val) (pc : ParseCls) (f : Field) (inst : Val) (x : Xml) :
    Except Exn Val := do
  evaluate nw f.type
  let v ← (if x.attr qNil = some py"true" then .ok .nil else parseType pc f.type x)
  setAttr T nw inst f.name v

/-- `getattr(instance, name).append(value)` (soapfish/xsd.py:821-822) -/
def appendAttr (T : Table) (nw : ClsId → Except Exn Val) (f : Field) (inst : Val) (v : Val) : Except Exn Val :=
  match inst with
  | .inst c fs xml =>
    match Dict.get? fs f.name with
    | some (.list true items) => do
      let items ← typedAppend T nw f items v
      .ok (.inst c (Dict.set fs f.name (.list true items)) xml)
    | some (.list false items) => .ok (.inst c (Dict.set fs f.name (.list false (items ++ [v]))) xml)
    | _ => .error .attributeError
  | _ => .error .attributeError

/-- `ListElement.parse` (soapfish/xsd.py:818-822) -/
def parseItem (T : Table) (nw : ClsId → Except Exn Val) (pc : ParseCls) (f : Field) (inst : Val) (x : Xml) :
    Except Exn Val := do
  evaluate nw f.type
  let v ← (if x.attr qNil ≠ none ∧ x.attr qNil ≠ some [] then .ok .nil else parseType pc f.type x)
  appendAttr T nw f inst v

/-- `Attribute.parse` (soapfish/xsd.py:686-692) -/
def parseAttr (T : Table) (nw : ClsId → Except Exn Val) (f : Field) (inst : Val) (x : Xml) : Except Exn Val := do
  evaluate nw f.type
  let v ← attrValue f (x.attr ⟨none, f.name⟩)
  setAttr T nw inst f.name (.atom v)

def parseOne (T : Table) (nw : ClsId → Except Exn Val) (pc : ParseCls) (f : Field) (inst : Val) (x : Xml) :
    Except Exn Val :=
  if f.kind = .list then parseItem T nw pc f inst x else parseElement T nw pc f inst x

/-- The loop over `_meta.fields` of a class that is not a Choice (soapfish/xsd.py:966-974). -/
def parseSeq (T : Table) (nw : ClsId → Except Exn Val) (pc : ParseCls) (x : Xml) (inst : Val) (f : Field) :
    Except Exn Val := do
  let subs ← findSub f x.kids
  foldE (parseOne T nw pc f) inst subs

/-- The loop over `_meta.fields` of a Choice (soapfish/xsd.py:966-976). -/
def parseChoice (T : Table) (nw : ClsId → Except Exn Val) (pc : ParseCls) (x : Xml) (inst : Val) :
    List Field → Except Exn Val
  | [] => .ok inst
  | f :: fs =>
    match x with
    | .elem q _ _ _ => if f.matchesTag q then parseOne T nw pc f inst x else parseChoice T nw pc x inst fs
    | .comment => parseChoice T nw pc x inst fs
    | .pi => .error .typeError

/-- `ComplexType.parse_xmlelement` (soapfish/xsd.py:958-981), looked up in the class or an instance of it. -/
def parseCls (T : Table) (N : Nat) : Nat → ParseCls
  | 0, _, _ => .error .recursionError
  | n + 1, c, x =>
    if hides T c py"parse_xmlelement" then .error .typeError
    else do
      let inst ← newInst T N c
      let inst := withXml inst x
      let inst ← foldE (fun i f => parseAttr T (newInst T N) f i x) inst (T c).attrs
      let inst ← (if (T c).choice then parseChoice T (newInst T N) (parseCls T N n) x inst (T c).elems
        else foldE (parseSeq T (newInst T N) (parseCls T N n) x) inst (T c).elems)
      foldE (fun i f => parseElement T (newInst T N) (parseCls T N n) f i x) inst (T c).groups

end Soapfish.Hidden
