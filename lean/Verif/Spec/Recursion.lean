import Verif.Spec.CodeFields
/-
Vocabulary for classes whose fields lead back to the class itself.
-/
namespace Soapfish

/-- A field of class `c` that is not a list has class `d` as its type. -/
def Needs (T : Table) (c d : ClsId) : Prop := ∃ f ∈ (T c).fields, f.kind ≠ .list ∧ f.type = .complex d

/-- The classes met on the way from `c` along fields that are not lists. -/
inductive LeadsTo (T : Table) : ClsId → ClsId → Prop where
  | refl {c} : LeadsTo T c c
  | step {c d e} : Needs T c d → LeadsTo T d e → LeadsTo T c e

/-- One can go on from `c` without end. -/
def Endless (T : Table) (c : ClsId) : Prop := ∃ s : Nat → ClsId, s 0 = c ∧ ∀ i, Needs T (s i) (s (i + 1))

/-- A field whose initial value suits its type: a list, a group, or a field without a default (or with one that its type
accepts). -/
inductive StartsFine (T : Table) (f : Field) : Prop where
  | list : f.kind = .list → StartsFine T f
  | group {c} : f.kind = .ref → f.type = .complex c → c ∈ (T c).mro → StartsFine T f
  | content : f.kind = .content → f.type ≠ .any → StartsFine T f
  | none : f.kind ∈ [.element, .classNamed, .attribute] → f.type ≠ .any → f.default = Val.none → StartsFine T f
  | default {w} : f.kind ∈ [.element, .classNamed, .attribute] → f.acceptItem T f.default = .ok w → StartsFine T f

/-- In a document: the complex type `a`, whose layers are usual ones, has an element that occurs at most once and whose type
is `b`. -/
structure Descends (prefixes : List (Option Str)) (doc : DSchema) (a b : DComplex) : Prop where
  listed : a ∈ doc.complexTypes
  element : ∃ cs, Layers prefixes doc a cs ∧ (∀ c ∈ cs, PlainContent c) ∧ (layerNames cs).Nodup ∧ py"create" ∉ layerNames cs ∧
    ∃ c ∈ cs, ∃ e ∈ c.elements, ¬ e.Many ∧ ∃ q p l n, e.type = some q ∧ Qualified q p l ∧ p ∉ prefixes ∧ b.name = some n ∧
      capName n = capName l

end Soapfish
