import Verif.Code
/-
The text of the code generated from an XSD document (soapfish/templates/xsd.jinja2, soapfish/templates/lib.jinja2), character by
character, made from the statements of `Verif/Code.lean`.  Only the number of empty lines is not that of the templates.
-/
namespace Soapfish

/-- Items in a row, as the loops with `{% if not loop.last %}, {% endif %}` write them. -/
def commaSep : List Str → Str
  | [] => []
  | [a] => a
  | a :: b :: l => a ++ (py", " ++ commaSep (b :: l))

/-- `'{{ s }}'` -/
def quoted (s : Str) : Str := '\'' :: (s ++ py"'")

/-- How the body of a class for a complex type begins, which depends on the kind of content only
(soapfish/templates/lib.jinja2:99-118); the body of a class for a simple type without facets is `pass`
(soapfish/templates/lib.jinja2:43-44, 88-92). -/
inductive Opening where
  | nothing
  | pass
  | inheritance (kind : Str)
  deriving DecidableEq

def Opening.text : Opening → Str
  | .nothing => []
  | .pass => py"    pass\n"
  | .inheritance kind => py"    INHERITANCE = " ++ (kind ++ py"\n")

/-- `, tagname='…'` -/
def tagText : Option Str → Str
  | some s => py", tagname=" ++ quoted s
  | none => []

/-- `, minOccurs=…` -/
def minText : Option Int → Str
  | some n => py", minOccurs=" ++ intStr n
  | none => []

/-- `max_occurs` (soapfish/utils.py:158) -/
def boundSource : Bound → Str
  | .unbounded => py"xsd.UNBOUNDED"
  | .int n => intStr n

/-- `, nillable=True` -/
def nillableText : Bool → Str
  | true => py", nillable=True"
  | false => []

/-- An argument of a type in place (soapfish/templates/lib.jinja2:151-165), with its comma. -/
def argText (p : Str × PyArg) : Str :=
  p.1 ++ ('=' :: ((match p.2 with
    | .texts l => '[' :: (commaSep (l.map quoted) ++ py"]")
    | .rawText s => 'r' :: quoted s
    | .text s => quoted s
    | .expr s => s) ++ py","))

/-- An assignment in a class body (soapfish/templates/lib.jinja2:53, 62, 131, 133, 147, 150-165, 168). -/
def PyField.text : PyField → Str
  | .attribute n t tag use =>
    py"    " ++ (n ++ (py" = xsd.Attribute(" ++ (t.text ++ (tagText tag ++ (py", use=" ++ (use ++ py")\n"))))))
  | .ref n t => py"    " ++ (n ++ (py" = xsd.Ref(" ++ (t.text ++ py")\n")))
  | .element n t tag m nillable =>
    py"    " ++ (n ++ (py" = xsd.Element(" ++ (t.text ++ (tagText tag ++ (minText m ++ (nillableText nillable ++ py")\n"))))))
  | .list n t tag m b nillable =>
    py"    " ++ (n ++ (py" = xsd.ListElement(" ++ (t.text ++ (tagText (some tag) ++ (minText m ++ (py", maxOccurs=" ++
      (boundSource b ++ (nillableText nillable ++ py")\n"))))))))
  | .inPlace n t args => py"    " ++ (n ++ (py" = xsd.Element(" ++ (t.text ++ (py"(" ++ (args.flatMap argText ++ py"))\n")))))

/-- `enumeration = […]` (soapfish/templates/lib.jinja2:71-73) -/
def enumerationText : Option (List Str) → Str
  | some l => py"    enumeration = [" ++ (commaSep (l.map quoted) ++ py"]\n")
  | none => []

/-- `pattern = r'…'` and the like (soapfish/templates/lib.jinja2:74-87) -/
def facetSource (p : Str × Str) : Str := py"    " ++ (p.1 ++ (py" = r" ++ (quoted p.2 ++ py"\n")))

/-- `INDICATOR = …` (soapfish/templates/lib.jinja2:119-128) -/
def indicatorText : Option Indicator → Str
  | some .sequence => py"    INDICATOR = xsd.Sequence\n"
  | some .choice => py"    INDICATOR = xsd.Choice\n"
  | some .all => py"    INDICATOR = xsd.All\n"
  | none => []

/-- `instance.… = …` -/
def assignText (p : Str) : Str := py"        instance." ++ (p ++ (py" = " ++ (p ++ py"\n")))

/-- `render_create_method` (soapfish/templates/lib.jinja2:172-184) -/
def createText : Option (List Str) → Str
  | some l => py"\n    @classmethod\n    def create(cls" ++ ((l.flatMap fun p => py", " ++ p) ++
      (py"):\n        instance = cls()\n" ++ (l.flatMap assignText ++ py"        return instance\n")))
  | none => []

/-- A class statement (soapfish/templates/lib.jinja2:42-141) -/
def PyClassDef.text (o : Opening) (c : PyClassDef) : Str :=
  py"class " ++ (c.name ++ (py"(" ++ (c.base.text ++ (py"):\n" ++ (o.text ++ (enumerationText c.enumeration ++
    (c.facets.flatMap facetSource ++ (indicatorText c.indicator ++ (c.fields.flatMap PyField.text ++
      (createText c.create ++ py"\n\n"))))))))))

/-- An entry of `elements=` (soapfish/templates/lib.jinja2:31) -/
def PyTop.text (t : PyTop) : Str :=
  quoted t.name ++ (py": xsd.Element(" ++ ((match t.type with
    | .inl r => r.text
    | .inr n => n ++ py"()") ++ ((match t.substitutionGroup with
    | some g => py", substitutionGroup=\"" ++ (g ++ py"\"")
    | none => []) ++ py")")))

/-- A list of names as an argument of the schema -/
def namesText (l : List Str) : Str := commaSep l ++ py"],\n"

/-- `render_Schema` (soapfish/templates/lib.jinja2:14-40) for a document without a location -/
def PySchema.text (s : PySchema) : Str :=
  s.var ++ (py" = xsd.Schema(\n    imports=[" ++ (namesText s.imports ++ (py"    includes=[" ++ (namesText s.includes ++
    (py"    targetNamespace=" ++ (quoted s.targetNamespace ++ (py",\n    elementFormDefault=" ++ (quoted s.elementFormDefault ++
      (py",\n    simpleTypes=[" ++ (namesText s.simpleTypes ++ (py"    attributeGroups=[" ++ (namesText s.attributeGroups ++
        (py"    groups=[" ++ (namesText s.groups ++ (py"    complexTypes=[" ++ (namesText s.complexTypes ++
          (py"    elements={" ++ (commaSep (s.elements.map PyTop.text) ++ py"},\n)\n\n"))))))))))))))))))

/-- The code for one document (soapfish/templates/xsd.jinja2:19-49): a comment, classes, the schema. -/
def PyModule.text (os : List Opening) (m : PyModule) : Str :=
  py"# " ++ (m.schema.targetNamespace ++ (py"\n\n" ++ ((List.zipWith PyClassDef.text os m.classes).flatten ++ m.schema.text)))

/-! ### How classes begin -/

/-- `render_xsd_Restriction` (soapfish/templates/lib.jinja2:71-92) -/
def restrictionOpening (r : DRestriction) : Opening :=
  if r.enumerations = [] ∧ r.pattern = none ∧ r.minInclusive = none ∧ r.minExclusive = none ∧ r.maxInclusive = none ∧ r.maxExclusive = none
  then .pass else .nothing

/-- `render_complexType` (soapfish/templates/lib.jinja2:99-118) -/
def complexOpening (ct : DComplex) : Opening :=
  match ct.complexContent, ct.content.sequence with
  | some d, _ => if d.restriction.isSome then .inheritance py"xsd.Inheritance.RESTRICTION" else .inheritance py"xsd.Inheritance.EXTENSION"
  | none, some _ => .inheritance py"None"
  | none, none => .pass

/-- The beginnings of all classes of a document, in the order of `schemaCode`. -/
def openings (d : DSchema) : List Opening :=
  d.simpleTypes.flatMap (fun st => (st.restriction.map restrictionOpening).toList ++ (if st.list then [.pass] else [])) ++
    (d.attributeGroups.map (fun _ => .nothing) ++ (d.groups.map (fun _ => .nothing) ++ (d.complexTypes.map complexOpening ++
      (d.elements.filterMap fun e => e.complexType.map complexOpening))))

end Soapfish
