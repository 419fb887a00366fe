import Verif.Complex
/-
What of a description, as read from a WSDL document, makes no difference to the generated code (C135).
-/
namespace Soapfish

/-- The fields of the objects of soapfish/xsdspec.py, soapfish/wsdl11.py and soapfish/wsdl12.py that are read from documents, but
not looked at by the generators. -/
def unread : List Str :=
  [py"documentation", py"body", py"faults", py"headerfaults", py"encodingStyle", py"soapActionRequired", py"mixed"]

mutual
/-- The value without these fields, and without the document elements its instances were read from; all lists are plain. -/
def Val.forget : Val → Val
  | .nil => .nil
  | .atom a => .atom a
  | .list _ is => .list false (forgetList is)
  | .inst c fs _ => .inst c (forgetFields fs) Option.none
def forgetList : List Val → List Val
  | [] => []
  | v :: r => v.forget :: forgetList r
def forgetFields : List (Str × Val) → List (Str × Val)
  | [] => []
  | p :: r => if p.1 ∈ unread then forgetFields r else forgetPair p :: forgetFields r
def forgetPair : Str × Val → Str × Val
  | (k, v) => (k, v.forget)
end

end Soapfish
