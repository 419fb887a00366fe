import Verif.Serve
import Verif.Spec.Schemas
import Verif.Spec.Wsdl
/-
Vocabulary for stating which documents a dispatcher serves.
-/
namespace Soapfish

/-- The schema with links in the place of locations. -/
def GSchema.linked (s : GSchema) : GSchema :=
  { s with
    imports := s.imports.map fun i => (i.1, i.2.map (py"?xsd=" ++ ·))
    includes := s.includes.map fun l => l.map (py"?xsd=" ++ ·) }

/-- All imports and includes have locations. -/
def GSchema.Located (s : GSchema) : Prop :=
  (∀ i ∈ s.imports, ∃ l, i.2 = some l ∧ l ≠ []) ∧ ∀ i ∈ s.includes, ∃ l, i = some l ∧ l ≠ []

/-- An import or include element of XSD with that location. -/
def IsLink (e : Xml) (location : Option Str) : Prop :=
  (e.IsXsd py"import" ∨ e.IsXsd py"include") ∧ e.plainAttr py"schemaLocation" = location

/-- What a dispatcher serves: the WSDL document of the service with links for locations, and one document for each of
the schemas in `served`.  These can be reached from the schemas of the service, have different, non-empty locations, and
there is one for every schema that a schema of the service or one of them refers to. -/
structure Serving (W : World) (types : SchemaId → GSchema) (info : WService) (roots : List SchemaId) (d : Dispatcher)
    (served : List SchemaId) : Prop where
  wsdl : d.wsdl = W.write (wsdlDocument { info with schemas := roots.map fun i => (W.shown types i).linked })
  xsds : d.xsds = served.map fun i => ((W.schema i).location, W.write (document (W.shown types i).linked))
  reached : ∀ i ∈ served, Reaches W roots i
  once : (served.map fun i => (W.schema i).location).Nodup
  complete : ∀ i ∈ roots ++ served, ∀ j, Refers W i j → ∃ k ∈ served, (W.schema k).location = (W.schema j).location
  located : ∀ k ∈ served, ∃ l, (W.schema k).location = some l ∧ l ≠ []

/-- One of the served documents, the WSDL document included. -/
def ServedDocument (W : World) (types : SchemaId → GSchema) (info : WService) (roots served : List SchemaId) (x : Xml) :
    Prop :=
  x = wsdlDocument { info with schemas := roots.map fun i => (W.shown types i).linked } ∨
  ∃ i ∈ served, x = document (W.shown types i).linked

end Soapfish
