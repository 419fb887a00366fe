import Verif.Props.Render
import Verif.Props.Parse
import Verif.Props.Integers
import Verif.Examples
/-
Values that are assigned to repeated elements as a whole (soapfish/xsd.py:767-822, 878-886).
-/
namespace Soapfish
open Spec (InRange Denotes)

/-- **C123 (assignment).** A repeated element takes whatever is assigned to it: nothing is checked or converted. -/
theorem C123_stored (T : Table) (nw : ClsId → Except Exn Val) (c : ClsId) (vals : List (Str × Val)) (x : Option Xml) (name : Str) (f : Field)
    (hf : findField (T c).fields name = .ok f) (hk : f.kind = .list) (w : Val) :
    ∃ v, setAttr T nw (.inst c vals x) name w = .ok v ∧ v.attr name = some w ∧
      ∀ other, other ≠ name → v.attr other = (Val.inst c vals x).attr other := by
  refine ⟨.inst c (Dict.set vals name w) x, ?_, ?_, fun other ho => ?_⟩
  · simp only [setAttr, hf, bind_ok, Field.accept, hk, if_true]
  · exact Dict.get_set_same ..
  · exact Dict.get_set_other _ _ _ _ ho

/-- **C123 (append).** Nor is what is appended to a plain list that has been assigned, and no bound on the number applies. -/
theorem C123_append (T : Table) (nw : ClsId → Except Exn Val) (c : ClsId) (vals : List (Str × Val)) (x : Option Xml) (f : Field)
    (items : List Val) (h : Dict.get? vals f.name = some (.list false items)) (w : Val) :
    ∃ v, appendAttr T nw f (.inst c vals x) w = .ok v ∧ v.attr f.name = some (.list false (items ++ [w])) := by
  refine ⟨.inst c (Dict.set vals f.name (.list false (items ++ [w]))) x, ?_, ?_⟩
  · unfold appendAttr
    simp only [h]
  · exact Dict.get_set_same ..

/-- **C123 (texts).** A text that is assigned is written character by character, each in an element of its own, and the bounds on
the number of elements are those for the number of characters. -/
theorem C123_characters (T : Table) (n : Nat) (c c' : ClsId) (vals : List (Str × Val)) (x : Option Xml) (ns : Option Str) (q : Bool)
    (hh : (T c).header = false) (o : Out) (h : renderCls T (n + 1) c (.inst c' vals x) ns q = .ok o) (f : Field) (hf : f ∈ (T c').fields)
    (hk : f.kind = .list) (facets : StrFacets) (ht : f.type = .simple (.string facets)) (s : Str)
    (hv : Dict.get? vals f.name = some (.atom (.str s))) :
    ∃ kpre kpost, o.kids = kpre ++ s.map (fun ch => .elem (childName f (nsInside T c ns) q) [] (some [ch]) []) ++ kpost ∧
      (∀ m, f.minOccurs = some m → m ≠ 0 → m ≤ s.length) ∧ (∀ m, f.maxOccurs = some (.int m) → m ≠ 0 → (s.length : Int) ≤ m) := by
  obtain ⟨v, is, kpre, ks, kpost, h1, h2, h3, h4, h5, h6, h7⟩ := C21_occurrence_limits T n c c' vals x ns q hh o h f hf hk
  rw [hv] at h1
  injection h1 with h1
  subst h1
  cases h2
  refine ⟨kpre, kpost, ?_, fun m hm h0 => by simpa using h3 m hm h0, fun m hm h0 => by simpa using h4 m hm h0⟩
  rw [h5]
  congr 2
  clear h3 h4 h5 h6 hv
  induction s generalizing ks with
  | nil => cases h7; rfl
  | cons ch s ih =>
    cases h7 with
    | cons hc hr =>
      rw [ih _ hr, List.map_cons]
      congr 1
      cases hc with
      | simple _ ht' hx =>
        rw [ht] at ht'
        injection ht' with ht'
        subst ht'
        have : (Except.ok (some [ch]) : Except Exn (Option Str)) = .ok _ := hx
        injection this with this
        rw [← this]
        rfl
      | complex _ ht' _ => rw [ht] at ht'; cases ht'

/-- **C123 (other values).** Values other than lists and texts, None included, cannot be written. -/
theorem C123_not_iterable (T : Table) (n : Nat) (c c' : ClsId) (vals : List (Str × Val)) (x : Option Xml) (ns : Option Str) (q : Bool)
    (hh : (T c).header = false) (f : Field) (hf : f ∈ (T c').fields) (hk : f.kind = .list) (w : Val) (hv : Dict.get? vals f.name = some w)
    (hl : ∀ t is, w ≠ .list t is) (ht : ∀ s, w ≠ .atom (.str s)) (o : Out) : renderCls T n c (.inst c' vals x) ns q ≠ .ok o := by
  intro h
  cases n with
  | zero => cases h
  | succ n =>
    obtain ⟨v, is, _, _, _, h1, h2, _⟩ := C21_occurrence_limits T n c c' vals x ns q hh o h f hf hk
    rw [hv] at h1
    injection h1 with h1
    subst h1
    cases h2 with
    | list => exact hl _ _ rfl
    | text => exact ht _ rfl

theorem child_claimed {T : Table} {n : Nat} {f : Field} {ns : Option Str} {q : Bool} {v : Val} {k : Xml} (h : Child T n f ns q v k) : f.claims k = true := by
  have hname : (childName f ns q).loc = f.writtenName := by unfold childName; split <;> rfl
  have : ∀ a t s, f.claims (.elem (childName f ns q) a t s) = true := by
    intro a t s
    show (decide ((childName f ns q).loc = f.name) || decide (f.tagname = some (childName f ns q).loc)) = true
    rw [hname]
    unfold Field.writtenName
    split
    · simp
    · rename_i h
      cases hf : f.tagname with
      | none => exact absurd (.inl hf) h
      | some t => simp
  cases h <;> exact this ..

/-- **C123 (documents that cannot be read).** A document written from a list with an item whose text the type of the elements does not
read cannot be read by the class that wrote it. -/
theorem C123_unreadable (T : Table) (hT : T.Wf) (n : Nat) (c c' : ClsId) (vals : List (Str × Val)) (x : Option Xml) (ns : Option Str) (q : Bool)
    (hh : (T c).header = false) (hc : (T c').choice = false) (o : Out) (h : renderCls T (n + 1) c (.inst c' vals x) ns q = .ok o)
    (f : Field) (hf : f ∈ (T c').fields) (hk : f.kind = .list) (s : SType) (ht : f.type = .simple s) (t : Bool) (items : List Val)
    (hv : Dict.get? vals f.name = some (.list t items)) (a : Atom) (ha : .atom a ∈ items)
    (hbad : ∀ txt, s.xmlvalue a = .ok txt → ∀ w, s.pythonvalue (textAtom txt) ≠ .ok w)
    (N m : Nat) (tag : QName) (attrs : List (QName × Str)) (txt : Option Str) (v : Val) :
    parseCls T N m c' (.elem tag attrs txt o.kids) ≠ .ok v := by
  intro hp
  cases m with
  | zero => cases hp
  | succ m =>
    obtain ⟨ws, hw, hall⟩ := C29_list_in_document_order T hT N m c' hc tag attrs txt o.kids f hf hk v hp
    obtain ⟨w, is, kpre, ks, kpost, h1, h2, _, _, h5, _, h7⟩ := C21_occurrence_limits T n c c' vals x ns q hh o h f hf hk
    rw [hv] at h1
    injection h1 with h1
    subst h1
    cases h2
    obtain ⟨k, hkm, hchild⟩ := h7.mem_left ha
    have hmem : k ∈ o.kids.filter f.claims := by
      rw [List.mem_filter, h5]
      exact ⟨by simp [hkm], child_claimed hchild⟩
    obtain ⟨w, _, hread⟩ := hall.mem_left hmem
    cases hchild with
    | simple _ ht' hx =>
      rw [ht] at ht'
      injection ht' with ht'
      subst ht'
      cases hread with
      | nil hb hne _ =>
        cases s <;> cases hb
      | simple _ ht2 hpy _ =>
        rw [ht] at ht2
        injection ht2 with ht2
        subst ht2
        exact hbad _ hx _ hpy
      | complex _ ht2 _ => rw [ht] at ht2; cases ht2
    | complex _ ht' _ => rw [ht] at ht'; cases ht'

/-- C123: so it is with numbers outside of the range of an integer type. -/
theorem C123_numbers (k : IntKind) (i : Int) (hi : ¬ InRange k i) (txt : Option Str)
    (hx : (SType.integer (k.facets {})).xmlvalue (.int i) = .ok txt) (w : Atom) :
    (SType.integer (k.facets {})).pythonvalue (textAtom txt) ≠ .ok w := by
  have hx : (Except.ok (some (intStr i)) : Except Exn (Option Str)) = .ok txt := hx
  injection hx with hx
  subst hx
  intro hp
  have hnil : (Atom.str (intStr i)) ≠ .str py"nil" := by
    intro he
    injection he with he
    have := pyInt_intStr i
    rw [he] at this
    cases this
  have h1 := C01_integer_range k i
  rw [if_neg hi] at h1
  simp only [textAtom, SType.pythonvalue, nilOr, if_neg hnil, integerAccept, pyInt_intStr] at hp
  simp only [SType.accept, integerAccept] at h1
  have : ∀ e : Except Exn Unit, (e >>= fun _ => Except.ok (Atom.int i)) = .error .valueError → ((Except.ok i : Except Exn Int) >>= fun x => e >>= fun _ => .ok (.int x)) ≠ .ok w := by
    intro e he
    cases e with
    | ok u => cases he
    | error e => intro h'; cases h'
  exact this _ h1 hp

/-- C123: and with texts that do not denote a number. -/
theorem C123_words (k : IntKind) (s : Str) (hn : s ≠ py"nil") (hs : ∀ i, ¬ Denotes s i) (txt : Option Str)
    (hx : (SType.integer (k.facets {})).xmlvalue (.str s) = .ok txt) (w : Atom) :
    (SType.integer (k.facets {})).pythonvalue (textAtom txt) ≠ .ok w := by
  have hx : (Except.ok (some s) : Except Exn (Option Str)) = .ok txt := hx
  injection hx with hx
  subst hx
  intro hp
  rcases C04_integer_text k {} s with h | ⟨i, h, _⟩ | ⟨_, _, h⟩
  · exact hn h.1
  · exact hs i h
  · have : (SType.integer (k.facets {})).pythonvalue (.str s) = .error .valueError := h
    rw [show textAtom (some s) = .str s from rfl, this] at hp
    cases hp

/-! ### Examples -/

/-- A person with the text 'ab' for the tags, of which three are allowed: two elements are written. -/
example : ∃ o kpre kpost, renderCls Ex.table 3 0 (.inst 0 [(py"id", .atom (.int 7)), (py"name", Val.none), (py"age", .nil),
      (py"tags", .atom (.str py"ab")), (py"address", Val.none), (py"contact", .inst 2 [(py"email", Val.none)] none)] none) none true = .ok o ∧
    o.kids = kpre ++ [.elem ⟨some py"urn:p", py"tag"⟩ [] (some py"a") [], .elem ⟨some py"urn:p", py"tag"⟩ [] (some py"b") []] ++ kpost :=
  ⟨_, [.elem ⟨some py"urn:p", py"age"⟩ [(qNil, py"true")] none []], [], rfl, rfl⟩

namespace ExAssigned

/-- `class Bytes(xsd.ComplexType): n = xsd.ListElement(xsd.Byte)` -/
def bytes : Table := fun c =>
  if c = 0 then { name := py"Bytes", mro := [0], fields := [{ name := py"n", kind := .list, type := .simple (.integer (IntKind.byte.facets {})) }] }
  else { name := py"Empty", fields := [], mro := [c] }

theorem bytes_wf : bytes.Wf := by
  intro c
  unfold bytes
  split <;> simp

/-- `Bytes(n=[5, 300])` is written, -/
theorem written : renderCls bytes 3 0 (.inst 0 [(py"n", .list false [.atom (.int 5), .atom (.int 300)])] none) none true =
    .ok { kids := [Ex.leaf py"n" py"5", Ex.leaf py"n" py"300"] } := rfl

/-- but what is written is not read. -/
example (N m : Nat) (v : Val) : parseCls bytes N m 0 (.elem ⟨none, py"bytes"⟩ [] none [Ex.leaf py"n" py"5", Ex.leaf py"n" py"300"]) ≠ .ok v :=
  C123_unreadable bytes bytes_wf 2 0 0 _ none none true rfl rfl _ written _ (List.mem_cons_self ..) rfl _ rfl false _ rfl (.int 300)
    (by simp) (fun txt hx w => C123_numbers .byte 300 (by decide +kernel) txt hx w) N m _ _ _ v

end ExAssigned

end Soapfish
