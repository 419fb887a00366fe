import Verif.Complex
/-
When two field values are the same for a user: everything but the document element an instance was read from and
whether a list is a TypedList or a plain list.
-/
namespace Soapfish

mutual
/-- Forget `_xmlelement`, recursively; with `plain`, also forget whether a list is a TypedList. -/
def Val.eraseWith (plain : Bool) : Val → Val
  | .nil => .nil
  | .atom a => .atom a
  | .list t is => .list (t && !plain) (eraseList plain is)
  | .inst c fs _ => .inst c (eraseFields plain fs) Option.none
def eraseList (plain : Bool) : List Val → List Val
  | [] => []
  | v :: r => v.eraseWith plain :: eraseList plain r
def eraseFields (plain : Bool) : List (Str × Val) → List (Str × Val)
  | [] => []
  | p :: r => erasePair plain p :: eraseFields plain r
def erasePair (plain : Bool) : Str × Val → Str × Val
  | (k, v) => (k, v.eraseWith plain)
end

/-- The value without the document elements its instances were read from. -/
abbrev Val.strip (v : Val) : Val := v.eraseWith false

/-- The same value, recursively, except for the document elements the instances were read from. -/
def Val.SameFields (v w : Val) : Prop := v.eraseWith false = w.eraseWith false

/-- The same value, recursively, except for the document elements the instances were read from and for the class of
lists (TypedList or list). -/
def Val.Same (v w : Val) : Prop := v.eraseWith true = w.eraseWith true

/-- `instance.name` -/
def Val.attr (v : Val) (name : Str) : Option Val :=
  match v with
  | .inst _ fs _ => Dict.get? fs name
  | _ => Option.none

/-- The name a field is written under: its tag name, or its own name if the tag name is missing or empty. -/
def Field.writtenName (f : Field) : Str :=
  if f.tagname = none ∨ f.tagname = some [] then f.name else f.tagname.getD []

/-- Attribute names of every class are unique (as in every Python class). -/
def Table.Wf (T : Table) : Prop := ∀ c, ((T c).fields.map (·.name)).Nodup

end Soapfish
