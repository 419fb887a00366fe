import Verif.Spec.Documents
/-
Which instances are expected to survive being written to a document and read back.
-/
namespace Soapfish

/-- All attributes, elements and lists of a class, those of groups it refers to included (`n` bounds the nesting of
groups). -/
def flat (T : Table) : Nat → ClsId → List Field
  | 0, _ => []
  | n + 1, c => (T c).fields.flatMap fun f =>
    match f.kind, f.type with
    | .ref, .complex g => flat T n g
    | _, _ => [f]

/-- Two fields of one element that get in each other's way: attributes written under the same name, or elements one of
which is also claimed by the other field. -/
def Clash (f g : Field) : Prop :=
  (f.kind = .attribute ∧ g.kind = .attribute ∧ f.writtenName = g.writtenName) ∨
  (f.kind ≠ .attribute ∧ g.kind ≠ .attribute ∧
    (g.writtenName = f.name ∨ f.tagname = some g.writtenName ∨ f.writtenName = g.name ∨ g.tagname = some f.writtenName))

/-- The names of the parts of a class are unambiguous. -/
def Unambiguous (T : Table) (c : ClsId) : Prop := ∀ n, (flat T n c).Pairwise fun f g => ¬ Clash f g

/-- A text as read back from a document: empty text is no text. -/
def textBack : Option Str → Atom
  | some (ch :: cs) => .str (ch :: cs)
  | _ => .none

mutual
/-- A value that survives, for its declared type.
* Of a simple type: the text it is written as is read back as that value.
* Of a class: an instance of exactly that class, not a Choice, whose names are unambiguous. -/
inductive Survives (T : Table) (N : Nat) : FType → Val → Prop where
  | simple {s a txt b} : s.xmlvalue a = .ok txt → s.pythonvalue (textBack txt) = .ok b → s.accept b = .ok a →
      Survives T N (.simple s) (.atom a)
  | inst {c fs x i} : (T c).choice = false → (T c).header = false → Unambiguous T c → newInst T N c = .ok i →
      fs.map (·.1) = (T c).fields.map (·.name) →
      (∀ f v, f ∈ (T c).fields → Dict.get? fs f.name = some v → FieldSurvives T N f v) →
      Survives T N (.complex c) (.inst c fs x)
/-- A value of a field that survives. -/
inductive FieldSurvives (T : Table) (N : Nat) : Field → Val → Prop where
  /-- None in an element whose default is None -/
  | absent {f} : f.kind = .element → f.acceptItem T f.default = .ok Val.none → FieldSurvives T N f Val.none
  | nil {f} : f.kind = .element → f.nillable = true → (∀ c, f.type = .complex c → ∃ i, newInst T N c = .ok i) →
      FieldSurvives T N f .nil
  | element {f v} : f.kind = .element → v ≠ Val.none → Survives T N f.type v → FieldSurvives T N f v
  /-- a list, plain or typed, within `maxOccurs` -/
  | list {f t is} : f.kind = .list → (∀ m, f.maxOccurs = some (.int m) → (is.length : Int) ≤ m) →
      (∀ v, v ∈ is → ItemSurvives T N f v) → FieldSurvives T N f (.list t is)
  /-- an optional attribute that is None, whose default reads as None -/
  | noAttr {f s b} : f.kind = .attribute → f.writtenName = f.name → f.type = .simple s →
      s.pythonvalue f.default.toAtom = .ok b → s.accept b = .ok .none → FieldSurvives T N f Val.none
  /-- an attribute written under its own name -/
  | attr {f s a txt b} : f.kind = .attribute → f.writtenName = f.name → a ≠ .none → f.type = .simple s →
      s.xmlvalue a = .ok (some txt) → s.pythonvalue (.str txt) = .ok b → s.accept b = .ok a →
      FieldSurvives T N f (.atom a)
  /-- a group, written into the same element -/
  | group {f c fs x} : f.kind = .ref → f.type = .complex c → (T c).isGroup = true →
      Survives T N (.complex c) (.inst c fs x) → FieldSurvives T N f (.inst c fs x)
/-- An item of a list that survives. -/
inductive ItemSurvives (T : Table) (N : Nat) : Field → Val → Prop where
  | nil {f} : f.nillable = true → (∀ c, f.type = .complex c → ∃ i, newInst T N c = .ok i) → ItemSurvives T N f .nil
  | val {f v} : Survives T N f.type v → ItemSurvives T N f v
end

end Soapfish
