import Verif.Props.Render
import Verif.Props.Parse
/-
What becomes of the text 'nil' (C116).
-/
namespace Soapfish

/-- The simple types of numbers, truth values, dates and times. -/
inductive NotText : SType → Prop where
  | boolean : NotText .boolean
  | date : NotText .date
  | datetime {iso} : NotText (.datetime iso)
  | time {iso} : NotText (.time iso)
  | decimal {f} : NotText (.decimal f)
  | integer {f} : NotText (.integer f)

theorem accept_None (s : SType) (h : NotText s) : s.accept .none = .ok .none := by
  cases h <;> rfl

/-- **C116 (texts).** The text 'nil' means None to all simple types but strings, for which it is a text like others. -/
theorem C116_text : (∀ s, NotText s → s.pythonvalue (.str py"nil") = .ok .none) ∧
    (∀ f, (SType.string f).pythonvalue (.str py"nil") = .ok (.str py"nil")) := by
  refine ⟨fun s h => ?_, fun _ => rfl⟩
  cases h
  · decide
  · decide
  all_goals simp only [SType.pythonvalue, datetimePy, timePy, nilOr, if_true]

/-- **C116 (elements).** An element without `xsi:nil` and with the text 'nil' is read as None, unless its type is a string. -/
theorem C116_element (T : Table) (hT : T.Wf) (N n : Nat) (c : ClsId) (hc : (T c).choice = false) (q q' : QName)
    (a a' : List (QName × Str)) (t : Option Str) (pre post ks : List Xml) (f : Field) (hf : f ∈ (T c).fields)
    (hk : f.kind = .element) (s : SType) (ht : f.type = .simple s) (hs : NotText s)
    (hu : f.Claims (.elem q' a' (some py"nil") ks)) (hpost : ∀ w ∈ post, ¬ f.Claims w)
    (hnil : attrGet a' qNil ≠ some py"true") (v : Val)
    (hv : parseCls T N (n + 1) c (.elem q a t (pre ++ .elem q' a' (some py"nil") ks :: post)) = .ok v) :
    v.attr f.name = some Val.none := by
  obtain ⟨w, h1, h2⟩ := C29_last_occurrence T hT N n c hc q a t pre post _ f hf (.inl hk) hu hpost v hv
  rw [h1]
  cases h2 with
  | nil h _ => exact absurd h hnil
  | simple _ h2 h3 h4 =>
    rw [ht] at h2
    injection h2 with h2; subst h2
    rw [textAtom, C116_text.1 s hs] at h3
    injection h3 with h3; subst h3
    rw [accept_None s hs] at h4
    injection h4 with h4; rw [← h4]
  | complex _ h2 => rw [ht] at h2; cases h2

/-- **C116 (lost).** When the object is written again, the element is not there - if the other fields have other names. -/
theorem C116_lost (T : Table) (n : Nat) (c : ClsId) (vals : List (Str × Val)) (x : Option Xml) (hh : (T c).header = false)
    (f : Field) (hk : f.kind = .element) (hv : Dict.get? vals f.name = some Val.none)
    (hkinds : ∀ g ∈ (T c).fields, g.kind = .element ∨ g.kind = .list ∨ g.kind = .attribute)
    (hother : ∀ g ∈ (T c).fields, g.kind ≠ .attribute → g.writtenName = f.writtenName → g = f) (tag : Str) (ns : Option Str) (qf : Bool)
    (z : Xml) (hz : toXml T (n + 1) (.inst c vals x) tag ns qf = .ok z) : ∀ q a t ks, Xml.elem q a t ks ∈ z.kids → q.loc ≠ f.writtenName := by
  simp only [toXml] at hz
  obtain ⟨o, ho, hz⟩ := bind_eq_ok.1 hz
  injection hz with hz; subst hz
  obtain ⟨parts, h1, h2⟩ := C23_children_in_declaration_order T n c c vals x ns qf hh o ho
  intro q a t ks hy hn
  simp only [mkElem, Xml.kids, h1] at hy
  obtain ⟨p, hp, hyp⟩ := List.mem_flatten.1 hy
  obtain ⟨g, hg, w, hw, hcon⟩ := h2.mem_right hp
  have hname : ∀ {v k}, Child T n g (nsInside T c ns) qf v k → k = .elem q a t ks → g.writtenName = f.writtenName := by
    intro v k hck hkn
    have key : q = childName g (nsInside T c ns) qf → g.writtenName = f.writtenName := by
      intro he
      rw [← hn, he]
      unfold childName
      split <;> rfl
    cases hck <;> · injection hkn with e; exact key e.symm
  have hne : ∀ k : Kind, g.kind = k → k = .element ∨ k = .list ∨ k = .attribute := by
    intro k hk; rw [← hk]; exact hkinds g hg
  cases hcon with
  | «attribute» => cases hyp
  | absent => cases hyp
  | single hgk hnn hch =>
    cases List.mem_singleton.1 hyp
    have := hother g hg (by rw [hgk]; decide) (hname hch rfl)
    subst this
    exact hnn (Option.some.inj (hw.symm.trans hv))
  | list hgk _ hch _ _ =>
    obtain ⟨i, _, hi⟩ := hch.mem_right hyp
    have := hother g hg (by rw [hgk]; decide) (hname hi rfl)
    subst this
    rw [hk] at hgk; cases hgk
  | noName h => have := hne _ h; simp at this
  | noValue h => have := hne _ h; simp at this
  | named h => have := hne _ h; simp at this
  | noNameText h => have := hne _ h; simp at this
  | group h => rcases h with h | h <;> · have := hne _ h; simp at this
  | groupAsText h => rcases h with h | h <;> · have := hne _ h; simp at this
  | other h => rcases h with h | h <;> · have := hne _ h; simp at this

/-- **C116 (attributes).** NIL in an attribute is written as the text 'nil', and read as None, or as this text. -/
theorem C116_attribute (T : Table) (hT : T.Wf) (N n : Nat) (c : ClsId) (hc : (T c).choice = false) (q : QName)
    (a : List (QName × Str)) (t : Option Str) (ks : List Xml) (f : Field) (hf : f ∈ (T c).fields) (hk : f.kind = .attribute)
    (hnil : f.nillable = true) :
    (∃ o, renderAttr f .nil = .ok o ∧ o.attrs = [(⟨none, f.writtenName⟩, py"nil")]) ∧
    ∀ v, attrGet a ⟨none, f.name⟩ = some py"nil" → parseCls T N (n + 1) c (.elem q a t ks) = .ok v →
      ∃ s, f.type = .simple s ∧ (NotText s → v.attr f.name = some Val.none) ∧
        (∀ facets, s = .string facets → v.attr f.name = some (.atom (.str py"nil"))) ∧ v.attr f.name ≠ some .nil := by
  refine ⟨⟨{ attrs := [(⟨none, f.tag⟩, py"nil")] }, ?_, by rw [← tag_eq]⟩, fun v ha hv => ?_⟩
  · simp [renderAttr, Val.isNone, Val.isNil, hnil]
  · obtain ⟨s, b, w, h1, h2, h3, h4⟩ := C32_attribute T hT N n c hc q a t ks f hf hk v hv
    rw [ha] at h2
    refine ⟨s, h1, fun hs => ?_, fun facets hs => ?_, by rw [h4]; simp⟩
    · rw [C116_text.1 s hs] at h2
      injection h2 with h2; subst h2
      rw [accept_None s hs] at h3
      injection h3 with h3; rw [h4, ← h3]
    · subst hs
      injection h2 with h2; subst h2
      have : w = .str py"nil" := by
        have hcl : cleanWhitespace facets.ws py"nil" = py"nil" := by cases facets.ws <;> decide
        simp only [SType.accept, stringAccept, hcl] at h3
        obtain ⟨_, _, h3⟩ := bind_eq_ok.1 h3
        obtain ⟨_, _, h3⟩ := bind_eq_ok.1 h3
        obtain ⟨_, _, h3⟩ := bind_eq_ok.1 h3
        obtain ⟨_, _, h3⟩ := bind_eq_ok.1 h3
        obtain ⟨_, _, h3⟩ := bind_eq_ok.1 h3
        injection h3 with h3; exact h3.symm
      rw [h4, this]

/-! ## A concrete case -/

namespace ExNil

/-- A person with an age and a nickname, both given by elements, and a rank given by an attribute. -/
def person : Cls where
  name := py"Person"
  mro := [0]
  fields := [
    { name := py"rank", kind := .attribute, type := .simple (.integer {}), nillable := true, required := false },
    { name := py"age", kind := .element, type := .simple (.integer {}), minOccurs := some 0 },
    { name := py"nick", kind := .element, type := .simple (.string {}), minOccurs := some 0 }]

def T : Table := fun _ => person

def doc : Xml := .elem ⟨none, py"person"⟩ [(⟨none, py"rank"⟩, py"nil")] none
  [.elem ⟨none, py"age"⟩ [] (some py"nil") [], .elem ⟨none, py"nick"⟩ [] (some py"nil") []]

/-- The age and the rank are None, the nickname is 'nil', and what is written again has a nickname only. -/
example : ∃ v, parseCls T 9 9 0 doc = .ok v ∧ v.attr py"rank" = some Val.none ∧ v.attr py"age" = some Val.none ∧
    v.attr py"nick" = some (.atom (.str py"nil")) ∧
    toXml T 9 v py"person" none false =
      .ok (.elem ⟨none, py"person"⟩ [] none [.elem ⟨none, py"nick"⟩ [] (some py"nil") []]) := by
  exact ⟨_, rfl, rfl, rfl, rfl, rfl⟩

/-- A rank which is NIL is written 'nil', and read again as None. -/
example : ∃ v, (do let z ← toXml T 9 (.inst 0 [(py"rank", .nil), (py"age", Val.none), (py"nick", Val.none)] none) py"person" none false
                   parseCls T 9 9 0 z) = .ok v ∧ v.attr py"rank" = some Val.none := by
  exact ⟨_, rfl, rfl⟩

end ExNil

end Soapfish
