import Verif.Names
/-
Which prefixes stand for XML Schema (soapfish/utils.py:176-180), as code generation takes it from a document.

Documents are trees of elements with their namespace declarations; everything else in them is left out here, comments and
processing instructions included.  The document is given by its root element.
-/
namespace Soapfish

/-- Namespace declarations: a prefix (None for the default namespace) and what it stands for.  No element declares a prefix
twice.  `xmlns=""` declares the empty text. -/
abbrev NsMap := List (Option Str × Str)

/-- An element: its local name, the declarations it carries, its children. -/
inductive NsTree where
  | node (name : Str) (decls : NsMap) (kids : List NsTree)

/-- What a dictionary holds for a prefix; entries further in front replace those behind. -/
def NsMap.get (m : NsMap) (p : Option Str) : Option Str := (m.find? fun e => e.1 = p).map (·.2)

mutual
/-- `nsmap` of each element in `xml.xpath('//*[local-name()="schema"]')`, in document order; `outer` is what the elements
around declare. -/
def schemaMaps (outer : NsMap) : NsTree → List NsMap
  | .node name decls kids =>
    (if name = py"schema" then [decls ++ outer] else []) ++ schemaMapsAll (decls ++ outer) kids
def schemaMapsAll (outer : NsMap) : List NsTree → List NsMap
  | [] => []
  | t :: ts => schemaMaps outer t ++ schemaMapsAll outer ts
end

/-- `ns.xsd`, `ns.xsd2000` (soapfish/namespaces.py:5-6) -/
def xsdUris : List Str := [py"http://www.w3.org/2001/XMLSchema", py"http://www.w3.org/2000/10/XMLSchema"]

/-- `nsmap` of the root element, updated with that of each schema element (soapfish/utils.py:177-179). -/
def mergedMap : NsTree → NsMap
  | .node name decls kids => (schemaMaps [] (.node name decls kids)).foldl (fun m x => x ++ m) decls

/-- `find_xsd_namespaces` (soapfish/utils.py:176-180); a set, here a list that may name a prefix more than once. -/
def findXsdNamespaces (t : NsTree) : List (Option Str) :=
  ((mergedMap t).map (·.1)).filter fun p => match (mergedMap t).get p with | some u => decide (u ∈ xsdUris) | none => false

/-- The set handed to the templates for a WSDL document: that of the document and those of the documents it imports, one
added after another (soapfish/wsdl2py.py:55, 81). -/
def collectXsdNamespaces (docs : List NsTree) : List (Option Str) := docs.flatMap findXsdNamespaces

end Soapfish
