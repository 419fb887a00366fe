import Verif.Code
/-
Importing generated code: what the statements of `Verif/Code.lean` do when Python executes them.  Classes go by their
names: if a name is bound twice, all uses mean the last class.
-/
namespace Soapfish

/-- What may go wrong.  `unmodelled` stands for code whose effect is not described here. -/
inductive ImportErr where
  | syntaxError
  | raised (e : Exn)
  | unmodelled
  deriving DecidableEq

def raisedE {α : Type} : Except Exn α → Except ImportErr α
  | .ok a => .ok a
  | .error e => .error (.raised e)

/-! ### Lexical matters -/

def isLetterC (c : Char) : Bool := ('a' ≤ c ∧ c ≤ 'z') ∨ ('A' ≤ c ∧ c ≤ 'Z') ∨ c = '_'

def isDigitC (c : Char) : Bool := '0' ≤ c ∧ c ≤ '9'

/-- An identifier of ASCII characters that is no keyword. -/
def isIdent : Str → Bool
  | [] => false
  | c :: cs => isLetterC c && cs.all (fun d => isLetterC d || isDigitC d) && !((c :: cs) ∈ kwlist)

/-- A name used as an identifier.  A hyphen makes it an expression, which cannot be bound. -/
def checkIdent (s : Str) : Except ImportErr Unit :=
  if isIdent s then .ok ()
  else if s.all (fun d => isLetterC d || isDigitC d || d = '-') then .error .syntaxError
  else .error .unmodelled

/-- Escape sequences of one character. -/
def escapeChar : Char → Option Char
  | '\\' => some '\\'
  | '\'' => some '\''
  | '"' => some '"'
  | 'n' => some '\n'
  | 't' => some '\t'
  | 'r' => some '\r'
  | 'a' => some (Char.ofNat 7)
  | 'b' => some (Char.ofNat 8)
  | 'f' => some (Char.ofNat 12)
  | 'v' => some (Char.ofNat 11)
  | _ => none

/-- Escape sequences that go on after the first character, or none at all. -/
def longEscape (c : Char) : Bool := isDigitC c || c = 'x' || c = 'u' || c = 'U' || c = 'N' || c = '\n' || c = '\r'

/-- A character that cannot stand inside a literal between the given quotes. -/
def endsLiteral (quote c : Char) : Bool := c = quote || c = '\n' || c = '\r' || c = Char.ofNat 0

/-- The value of the text between quotes, if it is exactly one literal and uses no long escape. -/
def textValue (quote : Char) : Str → Option Str
  | [] => some []
  | '\\' :: [] => none
  | '\\' :: c :: r =>
    match escapeChar c with
    | some d => (textValue quote r).map (d :: ·)
    | none => if longEscape c then none else (textValue quote r).map ('\\' :: c :: ·)
  | c :: r => if endsLiteral quote c then none else (textValue quote r).map (c :: ·)

/-- The value of the text between single quotes after `r`: backslashes stay and keep a quote from ending the literal. -/
def rawTextValue : Str → Option Str
  | [] => some []
  | '\\' :: [] => none
  | '\\' :: c :: r => if c = '\n' ∨ c = '\r' ∨ c = Char.ofNat 0 then none else (rawTextValue r).map ('\\' :: c :: ·)
  | c :: r => if endsLiteral '\'' c then none else (rawTextValue r).map (c :: ·)

def literal : Option Str → Except ImportErr Str
  | some s => .ok s
  | none => .error .unmodelled

/-- Decimal digits without a leading zero. -/
def isNumeral : Str → Bool
  | [] => false
  | ['0'] => true
  | '0' :: _ => false
  | s => s.all isDigitC

/-- The value of an expression that is an integer, a decimal fraction, True, False or None. -/
def exprValue (s : Str) : Option Atom :=
  let body := match s with
    | '-' :: r => r
    | r => r
  if isNumeral body then
    match pyInt s with
    | .ok n => some (.int n)
    | .error _ => none
  else if body.all (fun c => isDigitC c || c = '.') && body.any isDigitC && body.count '.' = 1 then
    match pyFloat s with
    | .ok x => some (.float x)
    | .error _ => none
  else if s = py"True" then some (.bool true)
  else if s = py"False" then some (.bool false)
  else if s = py"None" then some .none
  else none

/-! ### Objects -/

/-- A simple type class: its class and base classes, and what its class body or that of a base class defines. -/
structure SimpleObj where
  cls : TypeCls
  enumeration : Option (List Str) := none
  facets : List (Str × Str) := []

/-- The first argument of a descriptor: a simple class, a complex class, an import path, an instance, or something that
is no type at all. -/
inductive TypeUse where
  | simple (o : SimpleObj)
  | complex (name : Str)
  | path (name : Str)
  | inst (t : TypeObj)
  | noType

/-- A descriptor -/
inductive FieldObj where
  | attribute (type : TypeUse) (tagname : Option Str) (use : Str)
  | ref (type : TypeUse)
  | element (type : TypeUse) (tagname : Option Str) (minOccurs : Int) (nillable : Bool)
  | list (type : TypeUse) (tagname : Str) (minOccurs : Option Int) (maxOccurs : Bound) (nillable : Bool)

/-- A complex type or group class with its own and inherited descriptors, in the order of their creation.  `bases` names
the class and its base classes in the module; `group` says it derives from `xsd.Group`. -/
structure ComplexObj where
  name : Str
  indicator : Indicator := .sequence
  fields : List (Str × FieldObj) := []
  bases : List Str := []
  group : Bool := false

inductive ClassObj where
  | simple (o : SimpleObj)
  | complex (o : ComplexObj)

/-- Name bindings of the module, the latest first. -/
abbrev PyEnv := List (Str × ClassObj)

def PyEnv.get (env : PyEnv) (n : Str) : Option ClassObj := (env.find? fun p => p.1 = n).map (·.2)

/-- All classes of `soapfish.xsd` that are types of fields, by name. -/
def allBuiltins : List Builtin :=
  [.string, .boolean, .date, .dateTime, .time, .decimal, .double, .float, .int .integer, .int .nonNegativeInteger,
    .int .nonPositiveInteger, .int .negativeInteger, .int .positiveInteger, .int .long, .int .int, .int .short,
    .int .byte, .int .unsignedLong, .int .unsignedInt, .int .unsignedShort, .int .unsignedByte, .maxOccurs, .list,
    .anyURI, .qname, .nmtoken, .nmtokens, .base64Binary, .duration, .anyType]

/-- Other names of `soapfish.xsd` that begin with a capital letter or an underscore (soapfish/xsd.py:49-1187); also, any
name with two leading underscores may be one. -/
def otherXsdNames : List Str :=
  [py"NIL", py"UNBOUNDED", py"CallStyle", py"Use", py"Inheritance", py"ElementFormDefault", py"Indicator",
    py"Sequence", py"Choice", py"All", py"Type", py"SimpleType", py"Element", py"ClassNamedElement", py"Attribute",
    py"Ref", py"Content", py"TypedList", py"ListElement", py"ComplexTypeMetaInfo", py"Complex_PythonType", py"Document",
    py"Schema", py"Method", py"NamedType", py"XSDDate"]

/-- `xsd.Name` -/
def xsdAttr (n : Str) : Except ImportErr ClassObj :=
  match allBuiltins.find? (fun b => b.clsName = n) with
  | some b => .ok (.simple { cls := .builtin b })
  | none =>
    if n = py"ComplexType" ∨ n = py"Group" ∨ n = py"AttributeGroup" then
      .ok (.complex { name := n, group := n ≠ py"ComplexType" })
    else if n ∈ otherXsdNames ∨ startsWith py"__" n then .error .unmodelled
    else .error (.raised .attributeError)

/-- A reference as a base class; a text cannot be one. -/
def baseClass (env : PyEnv) : PyRef → Except ImportErr ClassObj
  | .xsd n => xsdAttr n
  | .name n => match env.get n with
    | some o => .ok o
    | none => .error (.raised .nameError)
  | .path _ => .error (.raised .typeError)

def ClassObj.use : ClassObj → TypeUse
  | .simple o => .simple o
  | .complex o => .complex o.name

/-- A reference as an argument inside a class body, where the names in `bound` stand for descriptors. -/
def typeUse (env : PyEnv) (bound : List Str) : PyRef → Except ImportErr TypeUse
  | .xsd n => do .ok (← xsdAttr n).use
  | .name n =>
    if n ∈ bound then .ok .noType
    else match env.get n with
      | some o => .ok o.use
      | none => .error (.raised .nameError)
  | .path n => .ok (.path n)

/-! ### Types in place -/

/-- The class of soapfish.xsd a class derives from. -/
def TypeCls.root : TypeCls → Option Builtin
  | .builtin b => some b
  | .derived _ b => b.root
  | _ => none

inductive InitKind where
  | text | decimal | double | integer (k : IntKind) | other

/-- Whose constructor a class has (soapfish/xsd.py:130-143, 345-355, 423-448). -/
def Builtin.initKind : Builtin → InitKind
  | .string | .anyURI | .qname | .nmtoken | .nmtokens | .base64Binary | .duration => .text
  | .decimal => .decimal
  | .double | .float => .double
  | .int k => .integer k
  | _ => .other

/-- The parameters of the constructor -/
def InitKind.params : InitKind → List Str
  | .text => [py"enumeration", py"pattern", py"length", py"minLength", py"maxLength", py"whiteSpace"]
  | .decimal | .integer _ =>
    [py"enumeration", py"fractionDigits", py"maxExclusive", py"maxInclusive", py"minExclusive", py"minInclusive",
      py"pattern", py"totalDigits"]
  | .double =>
    [py"enumeration", py"maxExclusive", py"maxInclusive", py"minExclusive", py"minInclusive", py"pattern"]
  | .other => []

/-- An evaluated argument -/
inductive ArgValue where
  | texts (l : List Str)
  | atom (a : Atom)
  deriving DecidableEq

def evalTexts : List Str → Except ImportErr (List Str)
  | [] => .ok []
  | s :: l => do
    let a ← literal (textValue '\'' s)
    let r ← evalTexts l
    .ok (a :: r)

/-- Values of the facet `whiteSpace`, which are not put between quotes; no class has such a name. -/
def spaceWords : List Str := [py"preserve", py"replace", py"collapse"]

/-- The value of an argument in a class body, where the names in `bound` stand for descriptors. -/
def evalArg (bound : List Str) : PyArg → Except ImportErr ArgValue
  | .texts l => do .ok (.texts (← evalTexts l))
  | .rawText s => do .ok (.atom (.str (← literal (rawTextValue s))))
  | .text s => do .ok (.atom (.str (← literal (textValue '\'' s))))
  | .expr s => match exprValue s with
    | some a => .ok (.atom a)
    | none => if s ∈ spaceWords ∧ s ∉ bound then .error (.raised .nameError) else .error .unmodelled

def evalArgs (bound : List Str) : List (Str × PyArg) → Except ImportErr (List (Str × ArgValue))
  | [] => .ok []
  | (n, a) :: l => do
    let v ← evalArg bound a
    let r ← evalArgs bound l
    .ok ((n, v) :: r)

def argOf (args : List (Str × ArgValue)) (n : Str) : Option ArgValue := (args.find? fun p => p.1 = n).map (·.2)

/-- The argument of that name, if it is given and not None. -/
def atomArg (args : List (Str × ArgValue)) (n : Str) : Option Atom :=
  match argOf args n with
  | some (.atom .none) => none
  | some (.atom a) => some a
  | _ => none

def textArg (args : List (Str × ArgValue)) (n : Str) : Option Str :=
  match atomArg args n with
  | some (.str s) => some s
  | _ => none

def textsArg (args : List (Str × ArgValue)) (n : Str) : Option (List Str) :=
  match argOf args n with
  | some (.texts l) => some l
  | _ => none

def facetOf (facets : List (Str × Str)) (n : Str) : Option Str := (facets.find? fun p => p.1 = n).map (·.2)

/-- Overrides of the integer classes (soapfish/xsd.py:441-509), as the generator sees them. -/
def overrideType (k : IntKind) (t : TypeObj) : TypeObj :=
  let f := k.facets { maxInclusive := t.maxInclusive, minInclusive := t.minInclusive }
  { t with fractionDigits := some (.int 0), pattern := some py"[-+]?[0-9]+", maxInclusive := f.maxInclusive
           minInclusive := f.minInclusive }

/-- The facets of a new instance: those of the class unless the constructor sets them.  The constructor of numeric types
always sets them (soapfish/xsd.py:130-143, 345-355, 423-448). -/
def instanceOf (o : SimpleObj) (k : InitKind) (args : List (Str × ArgValue)) : TypeObj :=
  let numeric : TypeObj :=
    { cls := o.cls, enumeration := (textsArg args py"enumeration").map (·.map Atom.str)
      fractionDigits := atomArg args py"fractionDigits", pattern := textArg args py"pattern"
      minInclusive := atomArg args py"minInclusive", minExclusive := atomArg args py"minExclusive"
      maxExclusive := atomArg args py"maxExclusive", maxInclusive := atomArg args py"maxInclusive"
      totalDigits := atomArg args py"totalDigits" }
  let classFacet (n : Str) : Option Atom := (facetOf o.facets n).map Atom.str
  match k with
  | .text =>
    { cls := o.cls, enumeration := ((textsArg args py"enumeration").or o.enumeration).map (·.map Atom.str)
      pattern := (textArg args py"pattern").or (facetOf o.facets py"pattern"), length := atomArg args py"length"
      minLength := atomArg args py"minLength", maxLength := atomArg args py"maxLength"
      minInclusive := classFacet py"minInclusive", minExclusive := classFacet py"minExclusive"
      maxExclusive := classFacet py"maxExclusive", maxInclusive := classFacet py"maxInclusive" }
  | .decimal | .double => numeric
  | .integer i => overrideType i numeric
  | .other =>
    { cls := o.cls, enumeration := o.enumeration.map (·.map Atom.str), pattern := facetOf o.facets py"pattern"
      minInclusive := classFacet py"minInclusive", minExclusive := classFacet py"minExclusive"
      maxExclusive := classFacet py"maxExclusive", maxInclusive := classFacet py"maxInclusive" }

/-- Calling a simple type class.  Unknown arguments raise TypeError. -/
def callType (o : SimpleObj) (args : List (Str × ArgValue)) : Except ImportErr TypeObj :=
  match o.cls.root with
  | none => .error .unmodelled
  | some b =>
    if args.all (fun p => p.1 ∈ b.initKind.params) then .ok (instanceOf o b.initKind args)
    else .error (.raised .typeError)

/-- A call in a class body. -/
def inPlaceUse (env : PyEnv) (bound : List Str) (r : PyRef) (args : List (Str × PyArg)) : Except ImportErr TypeUse := do
  match ← typeUse env bound r with
  | .simple o => do .ok (.inst (← callType o (← evalArgs bound args)))
  | .path _ => .error (.raised .typeError)
  | .noType => .error (.raised .typeError)
  | _ => .error .unmodelled

/-! ### Class statements -/

/-- Names of fields that would change how classes work (soapfish/xsd.py:861-1000), or are changed by Python. -/
def reservedNames : List Str :=
  [py"INDICATOR", py"INHERITANCE", py"SCHEMA", py"accept", py"_meta", py"_find_field", py"_force_elements_type_evalution",
   py"render", py"parse_xmlelement", py"xml", py"parsexml", py"_xmlelement", py"_is_matching_element", py"_find_subelement"]

def checkField (n : Str) : Except ImportErr Unit :=
  if n ∈ reservedNames ∨ startsWith py"__" n then .error .unmodelled else checkIdent n

def PyField.target : PyField → Str
  | .attribute n .. => n
  | .ref n .. => n
  | .element n .. => n
  | .list n .. => n
  | .inPlace n .. => n

/-- The text of a tag name -/
def tagValue : Option Str → Except ImportErr (Option Str)
  | none => .ok none
  | some s => do .ok (some (← literal (textValue '\'' s)))

/-- `xsd.Use.…` -/
def useValue (s : Str) : Str :=
  if s = py"xsd.Use.REQUIRED" then py"required" else if s = py"xsd.Use.PROHIBITED" then py"prohibited" else py"optional"

/-- The right-hand side of an assignment in a class body.  `xsd` itself may have been rebound.  `Element` takes 0 or 1 for
`minOccurs` (soapfish/xsd.py:560-561). -/
def execField (env : PyEnv) (bound : List Str) (f : PyField) : Except ImportErr FieldObj :=
  if py"xsd" ∈ bound then .error (.raised .attributeError)
  else match f with
    | .attribute _ t tag use => do
      let u ← typeUse env bound t
      let tag ← tagValue tag
      .ok (.attribute u tag (useValue use))
    | .ref _ t => do .ok (.ref (← typeUse env bound t))
    | .element _ t tag m nillable => do
      let u ← typeUse env bound t
      let tag ← tagValue tag
      let m := m.getD 1
      if m = 0 ∨ m = 1 then .ok (.element u tag m nillable) else .error (.raised .valueError)
    | .list _ t tag m b nillable => do
      let u ← typeUse env bound t
      let tag ← literal (textValue '\'' tag)
      .ok (.list u tag m b nillable)
    | .inPlace _ t args => do .ok (.element (← inPlaceUse env bound t args) none 1 false)

/-- The fields of a class body, in the order they are created; a name that is bound again loses its descriptor. -/
def execFields (env : PyEnv) : List (Str × FieldObj) → List PyField → Except ImportErr (List (Str × FieldObj))
  | done, [] => .ok done
  | done, f :: l => do
    let o ← execField env (done.map (·.1)) f
    execFields env (done.filter (fun p => p.1 ≠ f.target) ++ [(f.target, o)]) l

/-- `@classmethod def create` binds the name `create`; `classmethod` itself may have been rebound. -/
def execCreate (fields : List (Str × FieldObj)) : Option (List Str) → Except ImportErr (List (Str × FieldObj))
  | none => .ok fields
  | some _ =>
    if fields.any (fun p => p.1 = py"classmethod") then .error (.raised .typeError)
    else .ok (fields.filter fun p => p.1 ≠ py"create")

/-- Inherited descriptors come first unless their names are bound again (`ComplexTypeMetaInfo`, soapfish/xsd.py:825-847);
`create` counts as bound. -/
def inheritFields (base own : List (Str × FieldObj)) (create : Bool) : List (Str × FieldObj) :=
  (base.filter fun p => ¬ (p.1 ∈ own.map (·.1)) ∧ ¬ (create ∧ p.1 = py"create")) ++ own

def evalFacets : List (Str × Str) → Except ImportErr (List (Str × Str))
  | [] => .ok []
  | (n, s) :: l => do
    let a ← literal (rawTextValue s)
    let r ← evalFacets l
    .ok ((n, a) :: r)

def evalEnumeration : Option (List Str) → Except ImportErr (Option (List Str))
  | none => .ok none
  | some l => do .ok (some (← evalTexts l))

/-- A class statement.  A class derived from a simple type is one, whatever its body says. -/
def execClass (env : PyEnv) (c : PyClassDef) : Except ImportErr PyEnv := do
  match ← baseClass env c.base with
  | .simple o => do
    let enumeration ← evalEnumeration c.enumeration
    let facets ← evalFacets c.facets
    let fields ← execFields env [] c.fields
    let _ ← execCreate fields c.create
    .ok ((c.name, .simple { cls := .derived c.name o.cls, enumeration := enumeration.or o.enumeration
                            facets := facets ++ o.facets }) :: env)
  | .complex o => do
    let _ ← evalEnumeration c.enumeration
    let _ ← evalFacets c.facets
    let fields ← execFields env [] c.fields
    let own ← execCreate fields c.create
    .ok ((c.name, .complex { name := c.name, indicator := c.indicator.getD o.indicator
                             fields := inheritFields o.fields own c.create.isSome
                             bases := c.name :: o.bases, group := o.group }) :: env)

def execClasses : PyEnv → List PyClassDef → Except ImportErr PyEnv
  | env, [] => .ok env
  | env, c :: l => do execClasses (← execClass env c) l

/-! ### Syntax -/

/-- `xsd.Name` or `Name`; in a path the name is text. -/
def checkRef : PyRef → Except ImportErr Unit
  | .xsd n => checkIdent n
  | .name n => checkIdent n
  | .path n => if isIdent n then .ok () else .error .unmodelled

def PyField.type : PyField → PyRef
  | .attribute _ t .. => t
  | .ref _ t .. => t
  | .element _ t .. => t
  | .list _ t .. => t
  | .inPlace _ t .. => t

/-- No parameter occurs twice; the first one is `cls`. -/
def checkParams (l : List Str) : Except ImportErr Unit :=
  if (py"cls" :: l).Nodup then .ok () else .error .syntaxError

def forE {α : Type} (f : α → Except ImportErr Unit) : List α → Except ImportErr Unit
  | [] => .ok ()
  | a :: l => do
    f a
    forE f l

/-- Fields and parameters are names, the body is not empty. -/
def checkClass (c : PyClassDef) : Except ImportErr Unit := do
  checkIdent c.name
  checkRef c.base
  if c.hasBody then .ok () else .error .syntaxError
  forE (fun f : PyField => do
    checkField f.target
    checkRef f.type) c.fields
  forE checkIdent (c.create.getD [])
  checkParams (c.create.getD [])

def checkTop (t : PyTop) : Except ImportErr Unit :=
  match t.type with
  | .inl r => checkRef r
  | .inr n => checkIdent n

def checkModule (m : PyModule) : Except ImportErr Unit := do
  forE checkClass m.classes
  forE checkIdent m.schema.simpleTypes
  forE checkIdent m.schema.attributeGroups
  forE checkIdent m.schema.groups
  forE checkIdent m.schema.complexTypes
  forE checkTop m.schema.elements

/-! ### The schema object -/

/-- A class for the type of a descriptor (`_evaluate_type`, soapfish/xsd.py:572-579). -/
def TypeUse.target (env : PyEnv) : TypeUse → Except Exn TypeUse
  | .path n => match env.get n with
    | some o => .ok o.use
    | none => .error .attributeError
  | u => .ok u

/-- Whether `accept` of the type is the one of `Type`, which raises NotImplementedError (soapfish/xsd.py:93-95). -/
def SimpleObj.noAccept (o : SimpleObj) : Bool := o.cls.root = some .list ∨ o.cls.root = some .anyType

def forX {α : Type} (f : α → Except Exn Unit) : List α → Except Exn Unit
  | [] => .ok ()
  | a :: l => do
    f a
    forX f l

/-- What `accept` of an instance of a simple type does with the instance itself, as `Ref` makes it do. -/
def acceptSelf (t : TypeCls) : Except Exn Unit :=
  if t.root = some .list ∨ t.root = some .anyType then .error .notImplemented
  else if t.root = some .maxOccurs then .error .typeError
  else .error .valueError

section
variable (env : PyEnv)

/-- Setting a field of a new instance to its empty value (soapfish/xsd.py:868-872): the type is evaluated, that is
instantiated, and accepts None; lists are not evaluated. -/
def initField (instantiate : Str → Except Exn Unit) (f : FieldObj) : Except Exn Unit :=
  match f with
  | .attribute u _ _ | .element u _ _ _ => do
    match ← u.target env with
    | .simple o => if o.noAccept then .error .notImplemented else .ok ()
    | .complex n => instantiate n
    | .inst t => if t.cls.root = some .list ∨ t.cls.root = some .anyType then .error .notImplemented else .ok ()
    | _ => .error .typeError
  | .ref u => do
    match ← u.target env with
    | .simple o => acceptSelf o.cls
    | .complex n => instantiate n
    | .inst t => acceptSelf t.cls
    | _ => .error .typeError
  | .list .. => .ok ()

/-- Calling a complex type class without arguments; the number bounds the depth of the recursion, as Python does. -/
def instantiate : Nat → Str → Except Exn Unit
  | 0, _ => .error .recursionError
  | d + 1, n =>
    match PyEnv.get env n with
    | some (.complex o) => forX (fun p => initField env (instantiate d) p.2) o.fields
    | _ => .ok ()

/-- `_evaluate_type` (soapfish/xsd.py:572-579) -/
def evaluateUse (d : Nat) (u : TypeUse) : Except Exn Unit := do
  match ← u.target env with
  | .complex n => instantiate env d n
  | .noType => .error .typeError
  | _ => .ok ()

def FieldObj.type : FieldObj → TypeUse
  | .attribute u .. => u
  | .ref u .. => u
  | .element u .. => u
  | .list u .. => u

/-- `_force_elements_type_evalution` of a class (soapfish/xsd.py:1017-1021); simple types do not have it. -/
def forceClass (d : Nat) (n : Str) : Except Exn Unit :=
  match PyEnv.get env n with
  | some (.complex o) => forX (fun p => evaluateUse env d (FieldObj.type p.2)) o.fields
  | _ => .error .attributeError

/-! ### What the generator sees of it -/

/-- The type object of an evaluated descriptor. -/
def TypeUse.obj (u : TypeUse) : Except Exn TypeObj := do
  match ← u.target env with
  | .simple o => .ok (instanceOf o ((o.cls.root.map Builtin.initKind).getD .other) [])
  | .complex n => .ok { cls := .complex n }
  | .inst t => .ok t
  | _ => .error .typeError

/-- Whether a class (or an import path) was passed. -/
def TypeUse.isClass : TypeUse → Bool
  | .inst _ => false
  | _ => true

def viewAttr (p : Str × FieldObj) : Except Exn (List GAttr) :=
  match p.2 with
  | .attribute u _ use => do .ok [{ name := p.1, use := use, type := ← u.obj env }]
  | _ => .ok []

def viewElem (p : Str × FieldObj) : Except Exn (List GElem) :=
  match p.2 with
  | .element u tag m nillable => do
    .ok [{ name := p.1, tagname := tag, nillable := nillable, minOccurs := some m, maxOccurs := none
           passedClass := u.isClass, type := ← u.obj env }]
  | .list u tag m b nillable => do
    .ok [{ name := p.1, tagname := some tag, nillable := nillable, minOccurs := m, maxOccurs := some (some b)
           passedClass := u.isClass, type := ← u.obj env }]
  | _ => .ok []

/-- Attributes and elements of a complex type, without the name. -/
def viewComplex (o : ComplexObj) : Except Exn GComplex := do
  let attributes ← mapE (viewAttr env) o.fields
  let elements ← mapE (viewElem env) o.fields
  .ok { name := o.name, attributes := attributes.flatten, elements := elements.flatten, indicator := some o.indicator }

/-- A simple type class (`st.enumeration`, `st.pattern`; the templates never define `fractionDigits`). -/
def viewSimple (n : Str) (o : SimpleObj) (base : TypeCls) : GSimple where
  name := n
  base := base
  enumeration := o.enumeration.map (·.map Atom.str)
  pattern := facetOf o.facets py"pattern"

end

/-- A name in a list of the schema statement. -/
def lookupName (env : PyEnv) (n : Str) : Except ImportErr ClassObj :=
  match env.get n with
  | some o => .ok o
  | none => .error (.raised .nameError)

def mapI {α β : Type} (f : α → Except ImportErr β) : List α → Except ImportErr (List β)
  | [] => .ok []
  | a :: l => do
    let b ← f a
    let r ← mapI f l
    .ok (b :: r)

/-- The descriptor of a top-level element: its type, or an instance of a class. -/
structure TopObj where
  name : Str
  use : TypeUse ⊕ ClassObj
  substitutionGroup : Option Str

/-- An entry of `elements=`; calling a class instantiates it. -/
def execTop (env : PyEnv) (d : Nat) (t : PyTop) : Except ImportErr TopObj := do
  let name ← literal (textValue '\'' t.name)
  let use ← (match t.type with
    | .inl r => do .ok (Sum.inl (← typeUse env [] r))
    | .inr n => do
      let o ← lookupName env n
      match o with
      | .complex c => do
        raisedE (instantiate env d c.name)
        .ok (Sum.inr o)
      | .simple _ => .ok (Sum.inr o))
  let group ← (match t.substitutionGroup with
    | none => .ok none
    | some s => do .ok (some (← literal (textValue '"' s))))
  .ok { name := name, use := use, substitutionGroup := group }

/-- A dictionary display: a later value for a key replaces the earlier one. -/
def dictTops (l : List TopObj) : List TopObj :=
  l.foldl (fun acc t => if acc.any (fun u => u.name = t.name) then acc.map (fun u => if u.name = t.name then t else u)
    else acc ++ [t]) []

def viewTop (env : PyEnv) (t : TopObj) : Except ImportErr GTop := do
  let type ← (match t.use with
    | .inl u => do .ok (GType.ofClass (← raisedE (u.obj env)).cls)
    | .inr (.complex c) => do .ok (GType.inst (some (← raisedE (viewComplex env c))))
    | .inr (.simple _) => .ok (GType.inst none))
  .ok { name := t.name, substitutionGroup := t.substitutionGroup, type := type }

/-- A schema created before: variable, target namespace, location. -/
abbrev SchemaVars := List (Str × Str × Option Str)

def schemaVar (vars : SchemaVars) (n : Str) : Except ImportErr (Str × Option Str) :=
  match vars.find? (fun p => p.1 = n) with
  | some p => .ok p.2
  | none => .error (.raised .nameError)

def evaluateTop (env : PyEnv) (d : Nat) (t : TopObj) : Except Exn Unit :=
  match t.use with
  | .inl u => evaluateUse env d u
  | .inr _ => .ok ()

def viewSimpleName (env : PyEnv) (n : Str) : Except ImportErr GSimple := do
  match ← lookupName env n with
  | .simple o => match o.cls with
    | .derived _ b => .ok (viewSimple n o b)
    | _ => .error .unmodelled
  | .complex _ => .error .unmodelled

def viewComplexName (env : PyEnv) (n : Str) : Except ImportErr GComplex := do
  match ← lookupName env n with
  | .complex o => raisedE (viewComplex env o)
  | .simple _ => .error .unmodelled

/-- `Schema_… = xsd.Schema(…)` (soapfish/xsd.py:1101-1143) and what the XSD generator sees of the new object.  (If the type
of a list inside the class of a top-level element does not exist, the error comes when the type is first used; here it
comes at once.) -/
def execSchema (vars : SchemaVars) (env : PyEnv) (d : Nat) (s : PySchema) : Except ImportErr GSchema := do
  let imports ← mapI (schemaVar vars) s.imports
  let includes ← mapI (schemaVar vars) s.includes
  let targetNamespace ← literal (textValue '\'' s.targetNamespace)
  let form ← literal (textValue '\'' s.elementFormDefault)
  let _ ← mapI (lookupName env) s.simpleTypes
  let _ ← mapI (lookupName env) s.attributeGroups
  let _ ← mapI (lookupName env) s.groups
  let _ ← mapI (lookupName env) s.complexTypes
  let tops ← mapI (execTop env d) s.elements
  let tops := dictTops tops
  raisedE (forX (forceClass env d) s.complexTypes)
  raisedE (forX (forceClass env d) s.attributeGroups)
  raisedE (forX (forceClass env d) s.groups)
  raisedE (forX (evaluateTop env d) tops)
  let simple ← mapI (viewSimpleName env) s.simpleTypes
  let complex ← mapI (viewComplexName env) s.complexTypes
  let elements ← mapI (viewTop env) tops
  .ok { targetNamespace := targetNamespace, qualified := form = py"qualified", imports := imports
        includes := includes.map (·.2), simpleTypes := simple, complexTypes := complex, elements := elements }

/-- Importing a module with the classes `env` and schemas `vars` defined before. -/
def execModule (vars : SchemaVars) (env : PyEnv) (d : Nat) (m : PyModule) : Except ImportErr (PyEnv × GSchema) := do
  checkModule m
  let env ← execClasses env m.classes
  let s ← execSchema vars env d m.schema
  .ok (env, s)

end Soapfish
