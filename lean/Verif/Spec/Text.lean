import Verif.Python
import Verif.Template
/-
The lines of a module that has given statements, and what names and texts must be like for that.
-/
namespace Soapfish

/-! ### Statements as lines -/

/-- A text between single quotes -/
def PyExpr.text (s : Str) : PyExpr := .str false '\'' s
/-- A text between single quotes after `r` -/
def PyExpr.rawText (s : Str) : PyExpr := .str true '\'' s
/-- `xsd.…` -/
def PyExpr.xsd (n : Str) : PyExpr := .attr (.name py"xsd") n

/-- `xsd.Name`, `Name` or `__name__ + '.Name'` -/
def PyRef.expr : PyRef → PyExpr
  | .xsd n => .xsd n
  | .name n => .name n
  | .path n => .add (.name py"__name__") (.text ('.' :: n))

/-- The call of what a reference refers to; in a sum the last operand is called. -/
def PyRef.called (args : List (Option Str × PyExpr)) : PyRef → PyExpr
  | .xsd n => .call (.xsd n) args
  | .name n => .call (.name n) args
  | .path n => .add (.name py"__name__") (.call (.text ('.' :: n)) args)

/-- An argument of a type in place: a word or a number is written without quotes. -/
def PyArg.value : PyArg → PyExpr
  | .texts l => .list (l.map .text)
  | .rawText s => .rawText s
  | .text s => .text s
  | .expr s => if s = py"True" ∨ s = py"False" ∨ s = py"None" then .const s else match s with
    | c :: _ => if isLetterC c then .name s else .num s
    | [] => .num s

def tagArg (tag : Option Str) : List (Option Str × PyExpr) := tag.toList.map fun s => (some py"tagname", .text s)
def minArg (m : Option Int) : List (Option Str × PyExpr) := m.toList.map fun n => (some py"minOccurs", .num (intStr n))
def nillableArg (b : Bool) : List (Option Str × PyExpr) := if b then [(some py"nillable", .const py"True")] else []

def useExpr (use : Str) : PyExpr :=
  if use = py"xsd.Use.REQUIRED" then .attr (.xsd py"Use") py"REQUIRED"
  else if use = py"xsd.Use.PROHIBITED" then .attr (.xsd py"Use") py"PROHIBITED"
  else .attr (.xsd py"Use") py"OPTIONAL"

def Bound.expr : Bound → PyExpr
  | .unbounded => .xsd py"UNBOUNDED"
  | .int n => .num (intStr n)

/-- The name and the value of an assignment in a class body. -/
def PyField.value : PyField → PyExpr
  | .attribute _ t tag use => .call (.xsd py"Attribute") ((none, t.expr) :: (tagArg tag ++ [(some py"use", useExpr use)]))
  | .ref _ t => .call (.xsd py"Ref") [(none, t.expr)]
  | .element _ t tag m nillable => .call (.xsd py"Element") ((none, t.expr) :: (tagArg tag ++ (minArg m ++ nillableArg nillable)))
  | .list _ t tag m b nillable =>
    .call (.xsd py"ListElement") ((none, t.expr) :: (tagArg (some tag) ++ (minArg m ++ ((some py"maxOccurs", b.expr) :: nillableArg nillable))))
  | .inPlace _ t args => .call (.xsd py"Element") [(none, t.called (args.map fun p => (some p.1, p.2.value)))]

def PyField.line (f : PyField) : Nat × PyLine := (4, .assign (.name f.target) f.value)

/-- `xsd.Inheritance.…` or None -/
def inheritanceExpr (kind : Str) : PyExpr :=
  if kind = py"xsd.Inheritance.RESTRICTION" then .attr (.xsd py"Inheritance") py"RESTRICTION"
  else if kind = py"xsd.Inheritance.EXTENSION" then .attr (.xsd py"Inheritance") py"EXTENSION"
  else .const py"None"

def Opening.lines : Opening → List (Nat × PyLine)
  | .nothing => []
  | .pass => [(4, .pass)]
  | .inheritance kind => [(4, .assign (.name py"INHERITANCE") (inheritanceExpr kind))]

def enumerationLines (l : Option (List Str)) : List (Nat × PyLine) :=
  l.toList.map fun l => (4, .assign (.name py"enumeration") (.list (l.map .text)))

def facetLine (p : Str × Str) : Nat × PyLine := (4, .assign (.name p.1) (.rawText p.2))

def Indicator.expr : Indicator → PyExpr
  | .sequence => .xsd py"Sequence"
  | .choice => .xsd py"Choice"
  | .all => .xsd py"All"

def indicatorLines (i : Option Indicator) : List (Nat × PyLine) :=
  i.toList.map fun i => (4, .assign (.name py"INDICATOR") i.expr)

/-- `@classmethod`, `def create(cls, …):` and its body -/
def createLines : Option (List Str) → List (Nat × PyLine)
  | none => []
  | some l => (4, .decorator (.name py"classmethod")) ::
      (4, .block py"def" (.call (.name py"create") ((none, .name py"cls") :: l.map fun p => (none, .name p)))) ::
      (8, .assign (.name py"instance") (.call (.name py"cls") [])) ::
      (l.map (fun p => (8, .assign (.attr (.name py"instance") p) (.name p))) ++ [(8, .ret (.name py"instance"))])

/-- A class statement with its body -/
def PyClassDef.lines (o : Opening) (c : PyClassDef) : List (Nat × PyLine) :=
  (0, .block py"class" (.call (.name c.name) [(none, c.base.expr)])) ::
    (o.lines ++ (enumerationLines c.enumeration ++ (c.facets.map facetLine ++ (indicatorLines c.indicator ++
      (c.fields.map PyField.line ++ createLines c.create)))))

/-- `'name': xsd.Element(…)` -/
def PyTop.entry (t : PyTop) : PyExpr × PyExpr :=
  (.text t.name, .call (.xsd py"Element") ((none, match t.type with
    | .inl r => r.expr
    | .inr n => .call (.name n) []) :: (t.substitutionGroup.toList.map fun g => (some py"substitutionGroup", .str false '"' g))))

def namesArg (key : Str) (l : List Str) : Option Str × PyExpr := (some key, .list (l.map .name))

def PySchema.line (s : PySchema) : Nat × PyLine :=
  (0, .assign (.name s.var) (.call (.xsd py"Schema") [namesArg py"imports" s.imports, namesArg py"includes" s.includes,
    (some py"targetNamespace", .text s.targetNamespace), (some py"elementFormDefault", .text s.elementFormDefault),
    namesArg py"simpleTypes" s.simpleTypes, namesArg py"attributeGroups" s.attributeGroups, namesArg py"groups" s.groups,
    namesArg py"complexTypes" s.complexTypes, (some py"elements", .dict (s.elements.map PyTop.entry))]))

/-- The classes and the schema -/
def PyModule.lines (os : List Opening) (m : PyModule) : List (Nat × PyLine) :=
  (List.zipWith PyClassDef.lines os m.classes).flatten ++ [m.schema.line]

/-! ### Names and texts -/

/-- ASCII letters, digits and underscores, no digit at the beginning, no keyword. -/
structure Identifier (s : Str) : Prop where
  chars : ∀ c ∈ s, isLetterC c = true ∨ isDigitC c = true
  first : ∃ c cs, s = c :: cs ∧ isLetterC c = true
  keyword : s ∉ kwlist

/-- A text that can stand between these quotes: a backslash protects the character after it. -/
inductive Quotable (quote : Char) : Str → Prop where
  | nil : Quotable quote []
  | char {c s} : c ≠ quote → c ≠ '\\' → c ≠ '\n' → c ≠ '\r' → c ≠ Char.ofNat 0 → Quotable quote s → Quotable quote (c :: s)
  | pair {c s} : c ≠ '\n' → c ≠ '\r' → c ≠ Char.ofNat 0 → Quotable quote s → Quotable quote ('\\' :: c :: s)

/-- A number without sign and exponent. -/
inductive Unsigned : Str → Prop where
  | zero : Unsigned ['0']
  | int {c s} : isDigitC c = true → c ≠ '0' → (∀ d ∈ s, isDigitC d = true) → Unsigned (c :: s)
  | point {a b} : (∀ d ∈ a, isDigitC d = true) → (∀ d ∈ b, isDigitC d = true) → a ++ b ≠ [] → Unsigned (a ++ '.' :: b)

/-- A number without exponent, maybe with a sign. -/
def Numeral (s : Str) : Prop := Unsigned s ∨ ∃ r, s = '-' :: r ∧ Unsigned r

def PyRef.Fits : PyRef → Prop
  | .xsd n => Identifier n
  | .name n => Identifier n
  | .path n => Quotable '\'' n

/-- Without quotes: a word, a constant or a number. -/
def PyArg.Fits : PyArg → Prop
  | .texts l => ∀ s ∈ l, Quotable '\'' s
  | .rawText s => Quotable '\'' s
  | .text s => Quotable '\'' s
  | .expr s => Identifier s ∨ s = py"True" ∨ s = py"False" ∨ s = py"None" ∨ Numeral s

def PyField.Fits : PyField → Prop
  | .attribute n t tag _ => Identifier n ∧ t.Fits ∧ ∀ s, tag = some s → Quotable '\'' s
  | .ref n t => Identifier n ∧ t.Fits
  | .element n t tag _ _ => Identifier n ∧ t.Fits ∧ ∀ s, tag = some s → Quotable '\'' s
  | .list n t tag _ _ _ => Identifier n ∧ t.Fits ∧ Quotable '\'' tag
  | .inPlace n t args => Identifier n ∧ t.Fits ∧ ∀ p ∈ args, p.2.Fits

structure PyClassDef.Fits (c : PyClassDef) : Prop where
  name : Identifier c.name
  base : c.base.Fits
  enumeration : ∀ l, c.enumeration = some l → ∀ s ∈ l, Quotable '\'' s
  facets : ∀ p ∈ c.facets, Quotable '\'' p.2
  fields : ∀ f ∈ c.fields, f.Fits
  create : ∀ l, c.create = some l → (∀ s ∈ l, Identifier s) ∧ (py"cls" :: l).Nodup
  body : c.hasBody = true

structure PyTop.Fits (t : PyTop) : Prop where
  name : Quotable '\'' t.name
  type : match t.type with
    | .inl r => r.Fits
    | .inr n => Identifier n
  group : ∀ g, t.substitutionGroup = some g → Quotable '"' g

structure PySchema.Fits (s : PySchema) : Prop where
  targetNamespace : Quotable '\'' s.targetNamespace
  elementFormDefault : Quotable '\'' s.elementFormDefault
  simpleTypes : ∀ n ∈ s.simpleTypes, Identifier n
  attributeGroups : ∀ n ∈ s.attributeGroups, Identifier n
  groups : ∀ n ∈ s.groups, Identifier n
  complexTypes : ∀ n ∈ s.complexTypes, Identifier n
  elements : ∀ t ∈ s.elements, t.Fits

/-- All names are identifiers, all texts can stand between their quotes, and no class is empty. -/
structure PyModule.Fits (m : PyModule) : Prop where
  classes : ∀ c ∈ m.classes, c.Fits
  schema : m.schema.Fits

/-- The names of schemas end with hexadecimal digits. -/
def HexDigits (digest : Str → Str) : Prop := ∀ s, ∀ c ∈ digest s, isDigitC c = true ∨ c ∈ py"abcdef"

/-! ### Expressions -/

mutual
/-- Names, texts, numbers, attributes and calls as one would write them in Python. -/
inductive Written : Str → PyExpr → Prop where
  | name {n} : Identifier n → Written n (.name n)
  | text {s} : Quotable '\'' s → Written ('\'' :: (s ++ ['\''])) (.text s)
  | num {s} : Numeral s → Written s (.num s)
  | attr {s e n} : Written s e → (∀ k, e ≠ .num k) → Identifier n → Written (s ++ ('.' :: n)) (.attr e n)
  | call {s e t args} : Written s e → WrittenArgs t args → Written (s ++ ('(' :: (t ++ [')']))) (.call e args)
/-- Arguments in parentheses -/
inductive WrittenArgs : Str → List (Option Str × PyExpr) → Prop where
  | none : WrittenArgs [] []
  | one {s e} : Written s e → WrittenArgs s [(Option.none, e)]
  | more {s e t a args} : Written s e → WrittenArgs t (a :: args) → WrittenArgs (s ++ (',' :: ' ' :: t)) ((Option.none, e) :: a :: args)
end

end Soapfish
