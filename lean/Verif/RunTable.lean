import Verif.RunTypes
import Verif.Spec.Generate
/-
The classes of an imported module as classes of `Verif/Complex.lean`: what their instances do.  A class is numbered by its
place in the environment.  The module holds the code for one document, so that all classes belong to one schema.
-/
namespace Soapfish

/-- The number of the class a name stands for. -/
def PyEnv.idOf (env : PyEnv) (n : Str) : ClsId := env.findIdx fun p => p.1 = n

section
variable (compile : Str → Pattern) (iso : Iso) (env : PyEnv)

/-- The type of an evaluated descriptor (soapfish/xsd.py:572-579).  `xsd.List` and `xsd.AnyType` share `Type.accept`, which
raises NotImplementedError; no instance of a class with such a field exists.  `none`: not described here. -/
def TypeUse.ftype (u : TypeUse) : Option FType :=
  match u.target env with
  | .ok (.complex n) =>
    match env.get n with
    | some (.complex _) => some (.complex (env.idOf n))
    | _ => none
  | .ok (.simple o) => if o.noAccept then some .any else objType (u.obj env)
  | .ok (.inst t) =>
    if t.cls.root = some .list ∨ t.cls.root = some .anyType then some .any else objType (u.obj env)
  | _ => none
where
  objType : Except Exn TypeObj → Option FType
    | .ok t => (t.stype compile iso).map .simple
    | .error _ => none

/-- A descriptor as a field (soapfish/xsd.py:546-570, 662-668, 784-787).  None of them has a default or a namespace. -/
def FieldObj.field (name : Str) (f : FieldObj) : Option Field :=
  match f with
  | .attribute u tag use => do
    .some { name := name, kind := .attribute, type := ← u.ftype compile iso env, tagname := tag
            required := use = py"required" }
  | .ref u => do .some { name := name, kind := .ref, type := ← u.ftype compile iso env }
  | .element u tag m nillable => do
    .some { name := name, kind := .element, type := ← u.ftype compile iso env, tagname := tag, nillable := nillable
            required := m ≠ 0 }
  | .list u tag m b nillable => do
    .some { name := name, kind := .list, type := ← u.ftype compile iso env, tagname := some tag, nillable := nillable
            minOccurs := m, maxOccurs := some b }

def mapO {α β : Type} (f : α → Option β) : List α → Option (List β)
  | [] => some []
  | a :: l => do
    let b ← f a
    let r ← mapO f l
    some (b :: r)

/-- A complex type class (soapfish/xsd.py:825-860) as class number `i`.  The schema sets `SCHEMA` of all classes of the
module (soapfish/xsd.py:1123-1134). -/
def ComplexObj.cls (s : SchemaInfo) (i : ClsId) (o : ComplexObj) : Option Cls := do
  let fields ← mapO (fun p : Str × FieldObj => p.2.field compile iso env p.1) o.fields
  some { name := o.name, fields := fields, mro := i :: o.bases.map env.idOf, choice := o.indicator = .choice
         schema := some s, isGroup := o.group }

/-- Something that is no complex type class. -/
def noClass (i : ClsId) : Cls := { name := [], fields := [], mro := [i] }

def entryCls (s : SchemaInfo) (i : ClsId) (p : Str × ClassObj) : Option Cls :=
  match p.2 with
  | .complex o => o.cls compile iso env s i
  | .simple _ => some (noClass i)

/-- All classes of the module. -/
def envClasses (s : SchemaInfo) : Option (List Cls) := mapO (fun p : (Str × ClassObj) × Nat => entryCls compile iso env s p.2 p.1) env.zipIdx

end

def classTable (l : List Cls) : Table := fun i => l.getD i (noClass i)

/-- The classes of a module whose schema is `s`. -/
def moduleTable (compile : Str → Pattern) (iso : Iso) (env : PyEnv) (s : GSchema) : Option Table :=
  (envClasses compile iso env ⟨some s.targetNamespace, s.qualified⟩).map classTable

/-- The class method `create` (soapfish/templates/lib.jinja2:172-183): a new instance gets the arguments one by one. -/
def callCreate (T : Table) (N : Nat) (c : ClsId) (params : List Str) (args : List Val) : Except Exn Val :=
  if args.length = params.length then do
    let v ← newInst T N c
    foldE (fun v p => setAttr T (newInst T N) v p.1 p.2) v (params.zip args)
  else .error .typeError

end Soapfish
