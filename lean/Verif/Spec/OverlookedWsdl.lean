import Verif.Spec.Overlooked
/-
What of a WSDL document the generators look at, for stating that the rest makes no difference (C135).
-/
namespace Soapfish

/-- The parts of a WSDL document that are told apart. -/
inductive WsdlConstruct where
  | definitions | import_ | types | message | part | portType | binding | operation | input | output | fault | service | port
  | soapBinding | soapOperation | soapBody | soapHeader | soapHeaderFault | soapFault | soapAddress
  deriving DecidableEq

/-- The local names of the elements of WSDL, of its SOAP, HTTP and MIME bindings, and of policies -/
def wsdlVocabulary : List Str :=
  [py"definitions", py"documentation", py"import", py"types", py"message", py"part", py"portType", py"operation", py"input",
   py"output", py"fault", py"binding", py"service", py"port", py"address", py"body", py"header", py"headerfault", py"content",
   py"mimeXml", py"multipartRelated", py"urlEncoded", py"urlReplacement", py"schema", py"Policy", py"PolicyReference",
   py"UsingAddressing"]

/-- The children that are looked at, and what they are; besides these, documentation and the schemas in `types` are. -/
def WsdlConstruct.children : WsdlConstruct → List (Str × WsdlConstruct)
  | .definitions => [(py"import", .import_), (py"types", .types), (py"message", .message), (py"portType", .portType),
      (py"binding", .binding), (py"service", .service)]
  | .message => [(py"part", .part)]
  | .portType => [(py"operation", .operation)]
  | .binding => [(py"operation", .operation), (py"binding", .soapBinding)]
  | .operation => [(py"input", .input), (py"output", .output), (py"fault", .fault), (py"operation", .soapOperation)]
  | .input | .output => [(py"body", .soapBody), (py"header", .soapHeader)]
  | .fault => [(py"fault", .soapFault)]
  | .soapHeader => [(py"headerfault", .soapHeaderFault)]
  | .service => [(py"port", .port)]
  | .port => [(py"address", .soapAddress)]
  | _ => []

/-- The attributes that are looked at. -/
def WsdlConstruct.attributes : WsdlConstruct → List Str
  | .definitions => [py"name", py"targetNamespace"]
  | .import_ => [py"namespace", py"location"]
  | .types => []
  | .message | .portType | .operation | .service => [py"name"]
  | .part => [py"name", py"element", py"type"]
  | .binding => [py"name", py"type"]
  | .input | .output | .fault => [py"name", py"message"]
  | .port => [py"name", py"binding"]
  | .soapBinding => [py"style", py"transport"]
  | .soapOperation => [py"soapAction", py"style", py"soapActionRequired"]
  | .soapBody => [py"parts", py"use", py"namespace", py"encodingStyle"]
  | .soapHeader | .soapHeaderFault => [py"message", py"part", py"use", py"namespace", py"encodingStyle"]
  | .soapFault => [py"name", py"use", py"namespace", py"encodingStyle"]
  | .soapAddress => [py"location"]

/-- The attributes of two elements, as far as they are looked at; `xsi:nil` is looked at everywhere. -/
def SameWsdlAttributes (c : WsdlConstruct) (a a' : List (QName × Str)) : Prop :=
  attrGet a qNil = attrGet a' qNil ∧ ∀ n ∈ c.attributes, attrGet a ⟨none, n⟩ = attrGet a' ⟨none, n⟩

/-- A comment, or an element that is not looked at in this place. -/
def OverlookedWsdl (c : WsdlConstruct) (u : Xml) : Prop :=
  u = .comment ∨ ∃ q a t k, u = .elem q a t k ∧ q.loc ∈ wsdlVocabulary ∧ q.loc ∉ c.children.map (·.1) ∧
    q.loc ≠ py"documentation" ∧ q.loc ≠ py"schema"

/-- Children of a part of two documents that differ, here and further down, only by what is not looked at.  Of tags, only the
local names count. -/
inductive SameWsdlParts : WsdlConstruct → List Xml → List Xml → Prop where
  | nil {c} : SameWsdlParts c [] []
  | left {c u ks ks'} : OverlookedWsdl c u → SameWsdlParts c ks ks' → SameWsdlParts c (u :: ks) ks'
  | right {c u ks ks'} : OverlookedWsdl c u → SameWsdlParts c ks ks' → SameWsdlParts c ks (u :: ks')
  | both {c c' q q' a a' t t' k k' ks ks'} : (q.loc, c') ∈ c.children → q.loc = q'.loc → SameWsdlAttributes c' a a' →
      SameWsdlParts c' k k' → SameWsdlParts c ks ks' →
      SameWsdlParts c (.elem q a t k :: ks) (.elem q' a' t' k' :: ks')
  | documentation {c q q' a a' t k k' ks ks'} : q.loc = py"documentation" → q'.loc = py"documentation" →
      attrGet a qNil = attrGet a' qNil → SameWsdlParts c ks ks' →
      SameWsdlParts c (.elem q a t k :: ks) (.elem q' a' t k' :: ks')
  | schema {q q' a a' t t' k k' ks ks'} : q.loc = py"schema" → q'.loc = py"schema" →
      SameXsd (.elem q a t k) (.elem q' a' t' k') → SameWsdlParts .types ks ks' →
      SameWsdlParts .types (.elem q a t k :: ks) (.elem q' a' t' k' :: ks')

/-- WSDL documents that differ only by what is not looked at. -/
def SameWsdl (x y : Xml) : Prop :=
  ∃ q a t k q' a' t' k', x = .elem q a t k ∧ y = .elem q' a' t' k' ∧ SameWsdlAttributes .definitions a a' ∧
    SameWsdlParts .definitions k k'

end Soapfish
