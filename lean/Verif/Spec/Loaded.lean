import Verif.Spec.Shown
import Verif.Spec.Twin
import Verif.ServiceRun
import Verif.RunTable
/-
Vocabulary for stating that a client with generated code and a hand-written server fit together.
-/
namespace Soapfish

/-! ### Programs with a generated module -/

/-- The classes of a module come after those of soapfish, which have the numbers 0 to 7. -/
def FType.placed : FType → FType
  | .complex c => .complex (c + 8)
  | t => t

def Field.placed (f : Field) : Field := { f with type := f.type.placed }

/-- A class of a module as a class of a program; all of them derive from ComplexType. -/
def Cls.placed (k : Cls) : Cls :=
  { k with fields := k.fields.map Field.placed, mro := k.mro.map (· + 8) ++ [cComplex] }

def Table.placed (T : Table) : Table := fun c => (T (c - 8)).placed

/-- A client program `W` made of the module `m`, which defines one service; the program calls it `S`.  The classes of the
module are `T` with names `env`. -/
structure Client (compile : Str → Pattern) (iso : Iso) (limit : Nat) (m : PyWsdlModule) (env : PyEnv) (T : Table) (W : World)
    (S : Service) : Prop where
  classes : ∃ var g, execModules limit [] [] m.schemas = .ok (env, [(var, g)]) ∧ moduleTable compile iso env g = some T
  user : W.user = T.placed
  service : ∃ G o type header cls, execWsdl limit m = .ok (G, [o]) ∧ Runs W S o.service type header cls ∧
    (∀ t n, t.type = .ofClass (.complex n) → type t = .complex (env.idOf n + 8)) ∧
    ∀ t c, t.type = .inst (some c) → type t = .complex (env.idOf c.name + 8)

/-! ### Hand-written programs -/

/-- The class of the type of an element of a schema. -/
inductive HasClass (cls top : Str → ClsId) (t : GTop) : ClsId → Prop where
  | type {n} : t.type = .ofClass (.complex n) → HasClass cls top t (cls n)
  | own {c} : t.type = .inst (some c) → HasClass cls top t (top t.name)

/-- A program `W` that offers the service `S`, which is described by `o`; `g` is its schema.  The classes are those that
the schema lists; all derive from ComplexType, and their names are unambiguous. -/
structure HandWritten (compile : Str → Pattern) (iso : Iso) (cls top : Str → ClsId) (W : World) (S : Service) (o : ServiceObj)
    (g : GSchema) : Prop where
  shown : Shown compile iso cls top (W.table S) g
  service : ∃ type header, Runs W S o type header cls ∧
    ∀ t ∈ g.elements, ∀ c, type t = .complex c → HasClass cls top t c
  complex : ∀ c ∈ g.complexTypes, cComplex ∈ (W.table S (cls c.name)).mro ∧ Unambiguous (W.table S) (cls c.name)
  own : ∀ t ∈ g.elements, ∀ c, t.type = .inst (some c) →
    cComplex ∈ (W.table S (top t.name)).mro ∧ Unambiguous (W.table S) (top t.name)

/-- Which class of the client goes with which class of the server. -/
def ClientServer (g : GSchema) (cls top : Str → ClsId) (env : PyEnv) (c c' : ClsId) : Prop :=
  ∃ i, Counterpart g cls top env.idOf c' i ∧ c = i + 8

end Soapfish
