import Verif.ServiceRun
import Verif.Meta
/-
The header classes of code generated from a WSDL document, as classes with fields.  The Element objects of such a class
are those of `Schema.elements`, shared by all header classes, and creating a class writes the attribute's name into them.
-/
namespace Soapfish

/-- `dir(cls)` lists attributes in the order of their names (soapfish/xsd.py:832). -/
def HeaderObj.sorted (h : HeaderObj) : List (Str × GTop) :=
  sortBy (fun a b => strLe a.1 b.1) h.elements

/-- Creating header classes, one after the other: `item._name = attr` for each attribute holding an Element
(soapfish/xsd.py:832-842, soapfish/templates/wsdl.jinja2:47-70).  The Element is the object kept in `Schema.elements`
(soapfish/xsd.py:1152-1154), so the name is remembered for the element, not for the class.  Elements are told apart by
their names, that is, the classes belong to one schema. -/
def headerNames (hs : List HeaderObj) : Dict Str :=
  hs.foldl (fun names h => h.sorted.foldl (fun names p => names.set p.2.name p.1) names) []

/-- The class of a header when all header classes exist: its `_meta.all` are the Elements sorted by the order of their
creation, which is that of the elements in the Schema (soapfish/xsd.py:843-847, soapfish/templates/lib.jinja2:26), with
the names they have got.  Their namespace is the target namespace (soapfish/xsd.py:1131-1132); they have no tagname, a
minimum of one occurrence, and no default (soapfish/xsd.py:546).  `type` gives their types.  With `use_wsa` there are
more fields, which are not modelled. -/
def headerCls (names : Dict Str) (s : GSchema) (type : GTop → FType) (mro : List ClsId) (h : HeaderObj) : Cls :=
  { name := h.name
    mro := mro
    schema := some { targetNamespace := some s.targetNamespace, qualified := s.qualified }
    fields := s.elements.flatMap fun e => (h.sorted.filter fun p => p.2.name = e.name).map fun p =>
      { name := (Dict.get? names e.name).getD p.1, kind := .element, type := type e,
        nspace := some s.targetNamespace } }

end Soapfish
