import Verif.Spec.Calls
/-
Vocabulary for stating that two programs with classes of their own describe the same documents: classes `T` in one
program, `T'` in the other, where `R c c'` says which class of the one goes with which class of the other.
-/
namespace Soapfish

/-- Types that go together: simple types that write, read and accept alike, or classes that go together. -/
inductive TypePair (R : ClsId → ClsId → Prop) : FType → FType → Prop where
  | simple {s s' : SType} : (∀ a, s.xmlvalue a = s'.xmlvalue a) → (∀ a, s.pythonvalue a = s'.pythonvalue a) →
      (∀ a, s.accept a = s'.accept a) → (s = .lang ↔ s' = .lang) → TypePair R (.simple s) (.simple s')
  | complex {c c' : ClsId} : R c c' → TypePair R (.complex c) (.complex c')

/-- Fields that go together: they are written in the same way and under the same name.  In Python they can have different
names, unless they are attributes. -/
structure FieldPair (R : ClsId → ClsId → Prop) (f f' : Field) : Prop where
  kind : f.kind = f'.kind
  named : f.kind ≠ .classNamed
  written : f.writtenName = f'.writtenName
  attrName : f.kind = .attribute → f.name = f'.name
  type : TypePair R f.type f'.type
  nillable : f.nillable = f'.nillable
  default : ∃ a, f.default = .atom a ∧ f'.default = .atom a
  nspace : f.nspace = f'.nspace
  required : f.required = f'.required
  minOccurs : f.minOccurs = f'.minOccurs
  maxOccurs : f.maxOccurs = f'.maxOccurs

/-- Classes that go together: their fields do, one after the other. -/
structure ClassPair (R : ClsId → ClsId → Prop) (c c' : Cls) : Prop where
  fields : All2 (FieldPair R) c.fields c'.fields
  choice : c.choice = c'.choice
  schema : c.schema = c'.schema
  isGroup : c.isGroup = c'.isGroup
  header : c.header = c'.header

/-- `R` pairs classes of `T` with classes of `T'` that go together. -/
def Paired (R : ClsId → ClsId → Prop) (T T' : Table) : Prop := ∀ c c', R c c' → ClassPair R (T c) (T' c')

mutual
/-- Values that go together: the same simple values, lists and instances of such values; the fields of instances can have
different names. -/
inductive ValPair (R : ClsId → ClsId → Prop) (T T' : Table) : Val → Val → Prop where
  | nil : ValPair R T T' .nil .nil
  | atom {a : Atom} : ValPair R T T' (.atom a) (.atom a)
  | list {t t' : Bool} {is is' : List Val} : ValPairs R T T' is is' → ValPair R T T' (.list t is) (.list t' is')
  | inst {c c' : ClsId} {fs fs' : List (Str × Val)} {x x' : Option Xml} : R c c' →
      fs.map (·.1) = (T c).fields.map (·.name) → fs'.map (·.1) = (T' c').fields.map (·.name) →
      ValPairs R T T' (fs.map (·.2)) (fs'.map (·.2)) → ValPair R T T' (.inst c fs x) (.inst c' fs' x')
/-- One after the other. -/
inductive ValPairs (R : ClsId → ClsId → Prop) (T T' : Table) : List Val → List Val → Prop where
  | nil : ValPairs R T T' [] []
  | cons {v v' : Val} {vs vs' : List Val} : ValPair R T T' v v' → ValPairs R T T' vs vs' →
      ValPairs R T T' (v :: vs) (v' :: vs')
end

/-- Two programs that read and write XML in the same way and whose classes go together: `W` with service `S`, `W'` with
service `S'`. -/
structure Partners (R : ClsId → ClsId → Prop) (W : World) (S : Service) (W' : World) (S' : Service) : Prop where
  depth : W.depth = W'.depth
  read : W.read = W'.read
  write : W.write = W'.write
  version : S.version = S'.version
  sane : (W.table S).Sane ∧ (W'.table S').Sane
  classes : Paired R (W.table S) (W'.table S')
  /-- all these classes derive from ComplexType -/
  roots : ∀ c c', R c c' → cComplex ∈ (W.table S c).mro ∧ cComplex ∈ (W'.table S' c').mro
  unambiguous : ∀ c c', R c c' → Unambiguous (W.table S) c ∧ Unambiguous (W'.table S') c'

/-- A client's service `S` has a method `m` for the operation, whose input and output are schema elements; the output has
class `cout`. -/
structure ClientMethod (W : World) (S : Service) (m : MethodId) (op tin tout : Str) (cout : ClsId) : Prop where
  method : First (fun m => (W.method m).operationName = op) S.methods m
  input : (W.method m).input = .name tin
  output : (W.method m).output = .name tout
  outputType : ∃ e, S.findElement W tout = .ok (some e) ∧ e.type = .complex cout

end Soapfish
