import Verif.Spec.Documents
/-
A small set of classes used to show that theorems about complex types apply to something:

    class Contact(xsd.Group):            # class 2
        email = xsd.Element(xsd.String)
    class Address(xsd.ComplexType):      # class 1
        city = xsd.Element(xsd.String)
    class Person(xsd.ComplexType):       # class 0
        id = xsd.Attribute(xsd.Int)
        name = xsd.Element(xsd.String)
        age = xsd.Element(xsd.Int, nillable=True, default=...)
        tags = xsd.ListElement(xsd.String, 'tag', maxOccurs=3)
        address = xsd.Element(Address)
        contact = xsd.Ref(Contact)
    class Pick(xsd.ComplexType):         # class 3
        INDICATOR = xsd.Choice
        left = xsd.Element(xsd.String)
        right = xsd.Element(xsd.Int)
-/
namespace Soapfish.Ex

def person : Cls where
  name := py"Person"
  mro := [0]
  schema := some ⟨some py"urn:p", true⟩
  fields := [
    { name := py"id", kind := .attribute, type := .simple (.integer {}) },
    { name := py"name", kind := .element, type := .simple (.string {}) },
    { name := py"age", kind := .element, type := .simple (.integer {}), nillable := true },
    { name := py"tags", kind := .list, type := .simple (.string {}), tagname := some py"tag",
      maxOccurs := some (.int 3) },
    { name := py"address", kind := .element, type := .complex 1 },
    { name := py"contact", kind := .ref, type := .complex 2 }]

def address : Cls where
  name := py"Address"
  mro := [1]
  fields := [{ name := py"city", kind := .element, type := .simple (.string {}) }]

def contact : Cls where
  name := py"Contact"
  mro := [2]
  isGroup := true
  fields := [{ name := py"email", kind := .element, type := .simple (.string {}) }]

def pick : Cls where
  name := py"Pick"
  mro := [3]
  choice := true
  fields := [
    { name := py"left", kind := .element, type := .simple (.string {}) },
    { name := py"right", kind := .element, type := .simple (.integer {}) }]

/-- The class table: every other number is an empty class. -/
def table : Table
  | 0 => person
  | 1 => address
  | 2 => contact
  | 3 => pick
  | n + 4 => { name := py"Empty", fields := [], mro := [n + 4] }

def leaf (tag : Str) (text : Str) : Xml := .elem ⟨none, tag⟩ [] (some text) []

/-- `<person id="7"><name>Ann</name><!-- c --><tag>a</tag><tag>b</tag><address><city>X</city></address>
<email>e</email></person>` -/
def doc : Xml :=
  .elem ⟨none, py"person"⟩ [(⟨none, py"id"⟩, py"7")] none
    [leaf py"name" py"Ann", .comment, leaf py"tag" py"a", leaf py"tag" py"b",
     .elem ⟨none, py"address"⟩ [] none [leaf py"city" py"X"], leaf py"email" py"e"]

theorem table_wf : table.Wf := by
  intro c
  match c with
  | 0 => decide
  | 1 => decide
  | 2 => decide
  | 3 => decide
  | n + 4 => exact List.Pairwise.nil

theorem table_sane : table.Sane where
  names := table_wf
  self := by
    intro c
    match c with
    | 0 => decide
    | 1 => decide
    | 2 => decide
    | 3 => decide
    | n + 4 => simp [table]
  defaults := by
    intro c f c' hf ht
    refine .inr ?_
    have : f.default = Val.none := by
      match c with
      | 0 => simp [table, person] at hf; rcases hf with rfl | rfl | rfl | rfl | rfl | rfl <;> rfl
      | 1 => simp [table, address] at hf; rcases hf with rfl; rfl
      | 2 => simp [table, contact] at hf; rcases hf with rfl; rfl
      | 3 => simp [table, pick] at hf; rcases hf with rfl | rfl <;> rfl
      | n + 4 => simp [table] at hf
    rw [this]; exact .none

/-- The document above is read. -/
theorem doc_parses : ∃ v, parseCls table 5 5 0 doc = .ok v := ⟨_, rfl⟩

end Soapfish.Ex
