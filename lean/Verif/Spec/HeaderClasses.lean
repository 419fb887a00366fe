import Verif.ServiceRun
/-
Words for stating what the fields of generated header classes are called (C133).
-/
namespace Soapfish

/-- A header class has the element named `e` as its part `p`. -/
def HeaderObj.Part (h : HeaderObj) (p e : Str) : Prop := ∃ g, (p, g) ∈ h.elements ∧ g.name = e

/-- No element is a part of header classes under two names. -/
def OneName (hs : List HeaderObj) : Prop :=
  ∀ h ∈ hs, ∀ h' ∈ hs, ∀ p p' e, h.Part p e → h'.Part p' e → p = p'

/-- An XML element with the local name `n` -/
def Xml.Called (k : Xml) (n : Str) : Prop := ∃ tag a t ks, k = .elem tag a t ks ∧ tag.loc = n

end Soapfish
