import Verif.Py
/-
XML documents as soapfish sees them through lxml.
-/
namespace Soapfish

/-- A tag or attribute name, `{ns}loc` in lxml notation. -/
structure QName where
  ns : Option Str
  loc : Str
  deriving DecidableEq, Repr

/-- `f'{{{ns}}}{loc}'` given to lxml: an empty namespace means none. -/
def QName.mk' (ns : Option Str) (loc : Str) : QName := ⟨if ns = some [] then none else ns, loc⟩

/-- An lxml node.  Tail texts, namespace prefixes and entities are not modelled; a comment or processing instruction
carries nothing of interest. -/
inductive Xml where
  | elem (tag : QName) (attrs : List (QName × Str)) (text : Option Str) (kids : List Xml)
  | comment
  | pi
  deriving Repr

/-- `soapfish.namespaces.xsi` (soapfish/namespaces.py:9) and `xml` -/
def nsXsi : Str := py"http://www.w3.org/2001/XMLSchema-instance"
def nsXml : Str := py"http://www.w3.org/XML/1998/namespace"

def qNil : QName := ⟨some nsXsi, py"nil"⟩
def qLang : QName := ⟨some nsXml, py"lang"⟩

/-- `xmlelement.get(name)` -/
def attrGet (attrs : List (QName × Str)) (q : QName) : Option Str :=
  match attrs with
  | [] => none
  | (k, v) :: r => if k = q then some v else attrGet r q

/-- `xmlelement.set(name, value)` -/
def attrSet (attrs : List (QName × Str)) (q : QName) (v : Str) : List (QName × Str) :=
  match attrs with
  | [] => [(q, v)]
  | (k, w) :: r => if k = q then (k, v) :: r else (k, w) :: attrSet r q v

def attrSetAll (attrs : List (QName × Str)) (sets : List (QName × Str)) : List (QName × Str) :=
  sets.foldl (fun a p => attrSet a p.1 p.2) attrs

/-- Characters lxml lets into a document; all others raise ValueError (lxml `_utf8`). -/
def xmlChar (c : Char) : Bool :=
  let n := c.toNat
  n == 0x9 || n == 0xa || n == 0xd || (0x20 ≤ n && n != 0xfffe && n != 0xffff)

/-- Assigning text or an attribute value. -/
def xmlText (s : Str) : Except Exn Str := if s.all xmlChar then .ok s else .error .valueError

/-! ### Writing a document out and reading it back -/

/-- What reading back a serialised text can give: empty text is no text; an element with children and no text may
have got white space from pretty printing. -/
def TextBack (t t' : Option Str) (kids : List Xml) : Prop :=
  if kids = [] then t' = (match t with | some [] => none | t => t)
  else t ≠ none → t' = (match t with | some [] => none | t => t)

/-- Two lists of the same length, related element by element. -/
inductive All2 {α β : Type} (R : α → β → Prop) : List α → List β → Prop where
  | nil : All2 R [] []
  | cons {a b as bs} : R a b → All2 R as bs → All2 R (a :: as) (b :: bs)

/-- `Back x y`: `y` can be the result of `etree.fromstring(etree.tostring(x))`, with or without pretty printing:
the same tags, attributes and children, and the same texts up to `TextBack`. -/
inductive Back : Xml → Xml → Prop where
  | elem {tag attrs t t' kids kids'} : TextBack t t' kids → All2 Back kids kids' →
      Back (.elem tag attrs t kids) (.elem tag attrs t' kids')
  | comment : Back .comment .comment
  | pi : Back .pi .pi

end Soapfish
