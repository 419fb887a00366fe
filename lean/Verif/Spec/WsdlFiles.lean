import Verif.WsdlFiles
import Verif.Spec.Files
import Verif.Spec.Inline
/-
Vocabulary for WSDL documents that refer to XSD documents.
-/
namespace Soapfish

/-- The code for a schema: the documents it leads to, each once, every one after those it refers to unless they lead back to it; then
the schema itself. -/
def SegmentOf (digest : Str → Str) (files : List Str → Option DFile) (b : List Str) (parent : Option Str) (root : DFile) (seg : List FileCode) : Prop :=
  ∃ L cs last, seg = cs ++ [last] ∧ L.Nodup ∧ (∀ f, f ∈ L ↔ Needed files b root f) ∧
    (∀ f ∈ L, ∀ g, Includes (skeletons files) f g → g ∈ L ∧ (Before L g f ∨ Leads (skeletons files) g f)) ∧
    All2 (fun f c => ∃ d loc u, files f = some d ∧ CodeFor digest none b f.dropLast d c ∧ CalledIn b f loc ∧
      c.second = some (u, varFor digest loc)) L cs ∧
    CodeFor digest parent b b root last ∧ last.second = none

/-- The texts that stand for namespaces. -/
def NamespaceHere (files : List Str → Option DFile) (schemas : List Val) (t : Str) : Prop :=
  (∃ s ∈ schemas, HasText s py"targetNamespace" t ∨ ImportsNs s t) ∨ ∃ f, HasNamespace files f t

/-- No variable stands for two namespaces, or for a namespace and a location. -/
structure NoClash (digest : Str → Str) (files : List Str → Option DFile) (b : List Str) (schemas : List Val) : Prop where
  namespaces : ∀ m n, NamespaceHere files schemas m → NamespaceHere files schemas n → digest m = digest n → m = n
  both : ∀ f s t, (files f).isSome → CalledIn b f s → NamespaceHere files schemas t → digest s ≠ digest t

end Soapfish
