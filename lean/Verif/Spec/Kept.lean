import Verif.Spec.Conforms
import Verif.Spec.Dispatch
/-
Which texts of a document are expected to be written back as they were, and when two documents have the same content.
-/
namespace Soapfish

open Spec (InRange RealDate WholeTime isoText offsetText decVal)

/-- Texts that are kept: not empty, dates have years from 1000 on, times an offset, decimals and floats are as `str()` writes
floats (decimals only without power of ten). -/
inductive Kept : Builtin → Str → Prop where
  | string {t} : t ≠ [] → XmlOk t → Kept .string t
  | anyURI {t} : t ≠ [] → XmlOk t → Kept .anyURI t
  | true : Kept .boolean py"true"
  | false : Kept .boolean py"false"
  | int {k i} : InRange k i → Kept (.int k) (intStr i)
  | date {y m d z} : RealDate y m d → 1000 ≤ y → ZoneText z → Kept .date (dateText y m d ++ z)
  | time {t n} : WholeTime t → -840 ≤ n → n ≤ 840 → Kept .time (timeText t ++ offsetText n)
  | dateTime {y m d t n} : RealDate y m d → 1000 ≤ y → WholeTime t → -840 ≤ n → n ≤ 840 →
      Kept .dateTime (isoText y m d t ++ offsetText n)
  | decimal {d : Dec} : d.Canonical →
      (decVal d = 0 ∨ (10 : ℚ) ^ (-4 : Int) ≤ |decVal d| ∧ |decVal d| < (10 : ℚ) ^ (16 : Int)) → Kept .decimal d.repr
  | double {d : Dec} : d.Canonical → Kept .double d.repr
  | float {d : Dec} : d.Canonical → Kept .float d.repr

/-- In attributes, empty texts are kept too. -/
inductive KeptAttr : Builtin → Str → Prop where
  | kept {b t} : Kept b t → KeptAttr b t
  | string : KeptAttr .string []
  | anyURI : KeptAttr .anyURI []

/-- The same element apart from the order of attributes, and from comments and white space between children, of which the
first one has none. -/
inductive SameContent : Xml → Xml → Prop where
  | elem {tag as as' t t' ks ks'} : as.Perm as' → (t = t' ∨ (t = none ∧ BlankText t')) → All2 SameContent ks (withoutComments ks') →
      SameContent (.elem tag as t ks) (.elem tag as' t' ks')

/-- A document whose instances can be read back: no attribute has the name of a keyword (such attributes are lost), and the
classes of simple types have different names. -/
structure ReadDocument (prefixes : List (Option Str)) (d : DSchema) : Prop extends CheckedDocument prefixes d where
  keywords : ∀ ct ∈ d.complexTypes, ∀ cs, Layers prefixes d ct cs → ∀ c ∈ cs, ∀ a ∈ c.attributes, ∀ n, a.name = some n → pyName n = n
  named : ∀ ct ∈ d.complexTypes, ∀ cs, Layers prefixes d ct cs → ∀ c ∈ cs, ∀ e ∈ c.elements, e.name ≠ some []
  different : ∀ st ∈ d.simpleTypes, ∀ st' ∈ d.simpleTypes, ∀ n n', st.name = some n → st'.name = some n' →
    capName n = capName n' → st = st'

end Soapfish
