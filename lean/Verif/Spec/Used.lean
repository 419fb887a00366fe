import Verif.Spec.OverlookedWsdl
/-
What of a WSDL document is used for the generated code, for stating that the rest makes no difference as long as the document is
read (C135).
-/
namespace Soapfish

/-- The children that are used; besides these, the schemas in `types` are. -/
def WsdlConstruct.usedChildren : WsdlConstruct → List (Str × WsdlConstruct)
  | .definitions => [(py"import", .import_), (py"types", .types), (py"message", .message), (py"portType", .portType),
      (py"binding", .binding), (py"service", .service)]
  | .message => [(py"part", .part)]
  | .portType => [(py"operation", .operation)]
  | .binding => [(py"operation", .operation), (py"binding", .soapBinding)]
  | .operation => [(py"input", .input), (py"output", .output), (py"operation", .soapOperation)]
  | .input | .output => [(py"header", .soapHeader)]
  | .service => [(py"port", .port)]
  | .port => [(py"address", .soapAddress)]
  | _ => []

/-- The attributes that are used. -/
def WsdlConstruct.usedAttributes : WsdlConstruct → List Str
  | .definitions => [py"name", py"targetNamespace"]
  | .import_ => [py"namespace", py"location"]
  | .message | .portType | .operation | .service => [py"name"]
  | .part => [py"name", py"element", py"type"]
  | .binding => [py"name", py"type"]
  | .input | .output => [py"name", py"message"]
  | .port => [py"name", py"binding"]
  | .soapBinding => [py"style", py"transport"]
  | .soapOperation => [py"soapAction", py"style"]
  | .soapHeader => [py"message", py"part", py"use", py"namespace"]
  | .soapAddress => [py"location"]
  | _ => []

/-- The attributes of two elements, as far as they are used. -/
def SameUsedAttributes (c : WsdlConstruct) (a a' : List (QName × Str)) : Prop :=
  attrGet a qNil = attrGet a' qNil ∧ ∀ n ∈ c.usedAttributes, attrGet a ⟨none, n⟩ = attrGet a' ⟨none, n⟩

/-- A comment, or an element that is not used in this place. -/
def UnusedWsdl (c : WsdlConstruct) (u : Xml) : Prop :=
  u = .comment ∨ ∃ q a t k, u = .elem q a t k ∧ q.loc ∈ wsdlVocabulary ∧ q.loc ∉ c.usedChildren.map (·.1) ∧ q.loc ≠ py"schema"

/-- Children of a part of two documents that differ, here and further down, only by what is not used. -/
inductive SameUsedParts : WsdlConstruct → List Xml → List Xml → Prop where
  | nil {c} : SameUsedParts c [] []
  | left {c u ks ks'} : UnusedWsdl c u → SameUsedParts c ks ks' → SameUsedParts c (u :: ks) ks'
  | right {c u ks ks'} : UnusedWsdl c u → SameUsedParts c ks ks' → SameUsedParts c ks (u :: ks')
  | both {c c' q q' a a' t t' k k' ks ks'} : (q.loc, c') ∈ c.usedChildren → q.loc = q'.loc → SameUsedAttributes c' a a' →
      SameUsedParts c' k k' → SameUsedParts c ks ks' →
      SameUsedParts c (.elem q a t k :: ks) (.elem q' a' t' k' :: ks')
  | schema {q q' a a' t t' k k' ks ks'} : q.loc = py"schema" → q'.loc = py"schema" →
      SameXsd (.elem q a t k) (.elem q' a' t' k') → SameUsedParts .types ks ks' →
      SameUsedParts .types (.elem q a t k :: ks) (.elem q' a' t' k' :: ks')

/-- WSDL documents that differ only by what is not used. -/
def SameUse (x y : Xml) : Prop :=
  ∃ q a t k q' a' t' k', x = .elem q a t k ∧ y = .elem q' a' t' k' ∧ SameUsedAttributes .definitions a a' ∧
    SameUsedParts .definitions k k'

end Soapfish
