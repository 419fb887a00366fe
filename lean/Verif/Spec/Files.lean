import Verif.Files
import Verif.Spec.Includes
/-
Vocabulary for the code of several XSD documents. Files are lists of names from the root.
-/
namespace Soapfish

/-- The documents as far as only their locations matter. -/
def skeletons (files : List Str → Option DFile) (f : List Str) : Option XsdFile := (files f).map fun d => ⟨d.locations, 0⟩

/-- The shortest way from the directory `b` to the file `f`. -/
inductive ShortWay : List Str → List Str → List Str → Prop where
  | up {b f : List Str} : (∀ x, b.head? = some x → f.head? ≠ some x) → ShortWay b f (List.replicate b.length py".." ++ f)
  | down {x : Str} {b f p : List Str} : ShortWay b f p → ShortWay (x :: b) (x :: f) p

/-- How the file `f` is called in the code for a document in the directory `b`. -/
def CalledIn (b f : List Str) (loc : Str) : Prop := ∃ way, ShortWay b f way ∧ Joined '/' way loc

/-- The variable of a schema that is named after `t`. -/
def varFor (digest : Str → Str) (t : Str) : Str := py"Schema_" ++ digest t

/-- The documents that code is generated for: the root document in the directory `b`, and what it leads to. -/
def Needed (files : List Str → Option DFile) (b : List Str) (root : DFile) (f : List Str) : Prop :=
  ∃ g, (∃ l, some l ∈ root.locations ∧ StandsFor b l g) ∧ Leads (skeletons files) g f

/-- The root document in the directory `base`, which is `b`, and the files it may lead to: they can be read, their locations
are local, and there is a file for each of them, which is not the directory `b` or one above it. -/
structure Documents (base : Str) (b : List Str) (read : Str → Except Exn DFile) (files : List Str → Option DFile) (root : DFile) :
    Prop where
  dir : Directory base
  notUrl : ¬ IsUrl base
  here : StandsFor [] base b
  read : ∀ p f d, Absolute p → StandsFor [] p f → files f = some d → read p = .ok d
  names : ∀ f, (files f).isSome → ∀ x ∈ f, x ≠ [] ∧ x ≠ py"." ∧ x ≠ py".." ∧ '/' ∉ x
  good : ∀ f d, files f = some d → GoodLocations (skeletons files) b f.dropLast ⟨d.locations, 0⟩
  root : GoodLocations (skeletons files) b b ⟨root.locations, 0⟩

/-- What is said about other documents in the code `c` of the document `d` in the directory `dir`. -/
structure CodeFor (digest : Str → Str) (parent : Option Str) (b dir : List Str) (d : DFile) (c : FileCode) : Prop where
  namespaced : ∃ ns, d.schema.targetNamespace.or parent = some ns ∧ c.module.schema.targetNamespace = ns ∧
    c.module.schema.var = varFor digest ns
  imports : All2 (fun o v => ∃ ns, o = some ns ∧ v = varFor digest ns) d.schema.imports c.module.schema.imports
  includes : All2 (fun o v => ∃ l g loc, o = some l ∧ StandsFor dir l g ∧ CalledIn b g loc ∧ v = varFor digest loc)
    d.schema.includes c.module.schema.includes

/-- The target namespace of a document. -/
def HasNamespace (files : List Str → Option DFile) (f : List Str) (ns : Str) : Prop :=
  ∃ d, files f = some d ∧ d.schema.targetNamespace = some ns

/-- The document in the file `f` says that it includes the file `g` (with `include`, not with `import`). -/
def SaysInclude (files : List Str → Option DFile) (f g : List Str) : Prop :=
  ∃ d l, files f = some d ∧ some l ∈ d.schema.includes ∧ StandsFor f.dropLast l g

/-- It says that it imports the namespace `ns`. -/
def SaysImport (files : List Str → Option DFile) (f : List Str) (ns : Str) : Prop :=
  ∃ d, files f = some d ∧ some ns ∈ d.schema.imports

/-- The document in the file `f` includes the file `g`, or imports a namespace that only the file `g` has. -/
def DependsOn (files : List Str → Option DFile) (f g : List Str) : Prop :=
  SaysInclude files f g ∨ ∃ ns, SaysImport files f ns ∧ ∀ h, HasNamespace files h ns → h = g

/-- A way from one document to another. -/
inductive DependWay (files : List Str → Option DFile) : List Str → List Str → Prop where
  | one {f g} : DependsOn files f g → DependWay files f g
  | more {f g h} : DependsOn files f g → DependWay files g h → DependWay files f h

/-- The text is the target namespace of a document, or a namespace that a document imports. -/
def NamespaceText (files : List Str → Option DFile) (parent : Option Str) (root : DFile) (t : Str) : Prop :=
  parent = some t ∨ root.schema.targetNamespace = some t ∨ some t ∈ root.schema.imports ∨ ∃ f, HasNamespace files f t ∨ SaysImport files f t

/-- Different documents and namespaces have different variables: no two of the texts have the same first five digits of
their MD5 sums, and no namespace is also a location. -/
structure NoCollisions (digest : Str → Str) (files : List Str → Option DFile) (b : List Str) (parent : Option Str) (root : DFile) :
    Prop where
  locations : ∀ f g s t, (files f).isSome → (files g).isSome → CalledIn b f s → CalledIn b g t → digest s = digest t → s = t
  namespaces : ∀ s t, NamespaceText files parent root s → NamespaceText files parent root t → digest s = digest t → s = t
  both : ∀ f s t, (files f).isSome → CalledIn b f s → NamespaceText files parent root t → digest s ≠ digest t

/-- Every namespace that the document `d` in the directory `dir` imports is the target namespace of a document it imports. -/
def ImportsRight (files : List Str → Option DFile) (dir : List Str) (d : DFile) : Prop :=
  ∀ ns, some ns ∈ d.schema.imports → ∃ l g, some l ∈ d.importLocations ∧ StandsFor dir l g ∧ HasNamespace files g ns

end Soapfish
