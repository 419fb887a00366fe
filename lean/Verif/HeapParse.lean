import Verif.Heap
/-
Parsing with objects that have identity (soapfish/xsd.py:111-112, 621-624, 686-692, 818-822, 958-981): the counterpart of the
last part of `Verif/Complex.lean` on the heap of `Verif/Heap.lean`.
-/
namespace Soapfish

/-- A loop whose body is done for its effects. -/
def forH {α : Type} (f : α → Act HVal) : List α → Act HVal
  | [], h => (.ok HVal.none, h)
  | a :: as, h => Act.andThen (f a h) fun _ h => forH f as h

/-- Parsing as an instance of a class. -/
abbrev ParseH := ClsId → Xml → Act HVal

/-- `_type.parse_xmlelement(xmlelement)` (soapfish/xsd.py:111-112 for simple types). -/
def parseTypeH (pc : ParseH) (t : FType) (x : Xml) : Act HVal := fun h =>
  match t with
  | .simple s =>
    match x with
    | .elem _ _ text _ => ((s.pythonvalue (textAtom text)).map .atom, h)
    | _ => (.error .typeError, h)
  | .complex c => pc c x h
  | .any => (.error .notImplemented, h)

/-- `Element.parse` (soapfish/xsd.py:621-624), also for Ref, Content and ClassNamedElement.  The instance that evaluating the
type makes is left out, as everywhere on this heap. -/
def parseElementH (T : Table) (N : Nat) (pc : ParseH) (f : Field) (inst : HVal) (x : Xml) : Act HVal := fun h =>
  Act.andThen (evaluate (newInst T N) f.type, h) fun _ h =>
  Act.andThen (if x.attr qNil = some py"true" then (.ok .nil, h) else parseTypeH pc f.type x h) fun v h =>
    setH T N inst f.name v h

/-- `getattr(instance, name).append(value)` (soapfish/xsd.py:821-822) -/
def appendAttrH (T : Table) (N : Nat) (inst : HVal) (name : Str) (v : HVal) : Act HVal := fun h =>
  match inst with
  | .ref a =>
    match h.cells[a]? with
    | some (.inst _ fs) =>
      match Dict.get? fs name with
      | some l => appendH T N l v h
      | none => (.error .attributeError, h)
    | _ => (.error .attributeError, h)
  | _ => (.error .attributeError, h)

/-- `ListElement.parse` (soapfish/xsd.py:818-822) -/
def parseItemH (T : Table) (N : Nat) (pc : ParseH) (f : Field) (inst : HVal) (x : Xml) : Act HVal := fun h =>
  Act.andThen (evaluate (newInst T N) f.type, h) fun _ h =>
  Act.andThen (if x.attr qNil ≠ none ∧ x.attr qNil ≠ some [] then (.ok .nil, h) else parseTypeH pc f.type x h) fun v h =>
    appendAttrH T N inst f.name v h

/-- `Attribute.parse` (soapfish/xsd.py:686-692) -/
def parseAttrH (T : Table) (N : Nat) (inst : HVal) (x : Xml) (f : Field) : Act HVal := fun h =>
  Act.andThen (evaluate (newInst T N) f.type, h) fun _ h =>
  Act.andThen (attrValue f (x.attr ⟨none, f.name⟩), h) fun v h => setH T N inst f.name (.atom v) h

/-- `field.parse(instance, name, subelement)` -/
def parseOneH (T : Table) (N : Nat) (pc : ParseH) (f : Field) (inst : HVal) (x : Xml) : Act HVal :=
  if f.kind = .list then parseItemH T N pc f inst x else parseElementH T N pc f inst x

/-- The loop over `_meta.fields` of a class that is not a Choice (soapfish/xsd.py:966-974). -/
def parseSeqH (T : Table) (N : Nat) (pc : ParseH) (inst : HVal) (x : Xml) (f : Field) : Act HVal := fun h =>
  Act.andThen (findSub f x.kids, h) fun subs h => forH (parseOneH T N pc f inst) subs h

/-- The loop over `_meta.fields` of a Choice (soapfish/xsd.py:966-976). -/
def parseChoiceH (T : Table) (N : Nat) (pc : ParseH) (inst : HVal) (x : Xml) : List Field → Act HVal
  | [], h => (.ok HVal.none, h)
  | f :: fs, h =>
    match x with
    | .elem q _ _ _ => if f.matchesTag q then parseOneH T N pc f inst x h else parseChoiceH T N pc inst x fs h
    | .comment => parseChoiceH T N pc inst x fs h
    | .pi => (.error .typeError, h)

/-- `ComplexType.parse_xmlelement` (soapfish/xsd.py:958-981) -/
def parseClsH (T : Table) (did : ClsId → Str → Nat) (N : Nat) : Nat → ParseH
  | 0, _, _, h => (.error .recursionError, h)
  | n + 1, c, x, h =>
    Act.andThen (newH T did N c h) fun o h =>
    Act.andThen (forH (parseAttrH T N o x) (T c).attrs h) fun _ h =>
    Act.andThen (if (T c).choice then parseChoiceH T N (parseClsH T did N n) o x (T c).elems h
      else forH (parseSeqH T N (parseClsH T did N n) o x) (T c).elems h) fun _ h =>
    Act.andThen (forH (fun f => parseElementH T N (parseClsH T did N n) f o x) (T c).groups h) fun _ h => (.ok o, h)

/-- What a program can do, parsing documents included. -/
inductive Deed where
  | op (o : Op)
  | parse (c : ClsId) (x : Xml)

def Deed.run (T : Table) (did : ClsId → Str → Nat) (N : Nat) : Deed → Act HVal
  | .op o, h => o.run T did N h
  | .parse c x, h => parseClsH T did N N c x h

/-- The heap after a history; the program goes on after exceptions. -/
def runDeeds (T : Table) (did : ClsId → Str → Nat) (N : Nat) : List Deed → Heap → Heap
  | [], h => h
  | d :: ds, h => runDeeds T did N ds (d.run T did N h).2

end Soapfish
