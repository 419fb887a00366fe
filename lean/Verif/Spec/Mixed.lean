import Verif.Spec.Dispatch
/-
Which WSDL documents are taken for SOAP 1.2, and which messages are SOAP 1.1 and SOAP 1.2, and which differ only in that (WSDL 1.1, sections 2.5 and 3.3;
WSDL 1.1 Binding Extension for SOAP 1.2; SOAP 1.1, sections 4 and 6.1; SOAP 1.2 part 1, section 5.1, and part 2, appendix A).
-/
namespace Soapfish

/-- The element `n` of the namespace `ns` is a child of `x`. -/
def ChildOf (x : Xml) (ns n : Str) (child : Xml) : Prop :=
  ∃ tag attrs text kids a t k, x = .elem tag attrs text kids ∧ child ∈ kids ∧ child = .elem ⟨some ns, n⟩ a t k

/-- A binding of the document — any of them — is for SOAP 1.2.  Imported documents do not count. -/
def AnyBinding12 (x : Xml) : Prop :=
  ∃ binding inner, ChildOf x py"http://schemas.xmlsoap.org/wsdl/" py"binding" binding ∧
    ChildOf binding py"http://schemas.xmlsoap.org/wsdl/soap12/" py"binding" inner

/-- A message with its headers is of SOAP 1.1: the namespace of the envelope, the content type, the action in a header of its
own. -/
def Message11 (headers : Dict Str) (x : Xml) : Prop :=
  ∃ action a t k, headers = [(py"Content-Type", py"text/xml"), (py"SOAPAction", action)] ∧
    x = .elem ⟨some py"http://schemas.xmlsoap.org/soap/envelope/", py"Envelope"⟩ a t k

/-- A message with its headers is of SOAP 1.2: the namespace of the envelope, and the content type with the action. -/
def Message12 (headers : Dict Str) (x : Xml) : Prop :=
  ∃ action a t k, headers = [(py"Content-Type", py"application/soap+xml; action=\"" ++ action ++ py"\"")] ∧
    x = .elem ⟨some py"http://www.w3.org/2003/05/soap-envelope", py"Envelope"⟩ a t k

/-- Two ways to read the contents of messages: what is read differs only in how envelopes and bodies are marked — in which
namespaces they are, what the envelope is called, and in their attributes and texts. -/
def SameLetters (read read' : Bytes → Option Xml) : Prop :=
  ∀ c, read c = read' c ∨ ∃ doc doc' hdr x, read c = some doc ∧ read' c = some doc' ∧
    PlainMessage doc hdr x ∧ PlainMessage doc' hdr x

end Soapfish
