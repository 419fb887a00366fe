import Verif.Props.CodeReads
import Verif.Props.ParseTypes
import Verif.Props.Assigned
/-
Choices in generated code (soapfish/templates/lib.jinja2:119-128, soapfish/xsd.py:958-981).
-/
set_option maxRecDepth 8000
namespace Soapfish

section
variable {prefixes : List (Option Str)} {digest : Str → Str} {n limit : Nat} {parent : Option Str} {d : DSchema}
  {m : PyModule} {vars : SchemaVars} {env : PyEnv} {s : GSchema} {compile : Str → Pattern} {iso : Iso} {T : Table}

/-- A field of an element claims an XML element only if it has the name in the XSD document or that of the Python attribute. -/
theorem elem_claims {e : DElement} {f : Field} (h : ElemField e f) {x : Str} (hx : e.name = some x) {q : QName} {as : List (QName × Str)}
    {t : Option Str} {ks : List Xml} (hq : q.loc ≠ []) (hc : f.Claims (.elem q as t ks)) : q.loc = x ∨ q.loc = pyName x := by
  obtain ⟨y, hy, hn, ht⟩ := h.name
  rw [hx] at hy
  injection hy with hy
  subst hy
  obtain ⟨_, _, _, _, he, hc⟩ := hc
  cases he
  rcases hc with hc | hc
  · exact .inr (hc.trans hn)
  · left
    rw [← ht]
    unfold Field.tag
    rw [hc]
    cases hl : q.loc with
    | nil => exact absurd hl hq
    | cons => rfl

/-- **C124 (reading).** For a complex type whose content is a choice - that of an extension counts, if it has any - the class reads none of
the children, those for the sequence of a base type included: all attributes for elements are None, or empty lists.  Excepted are elements
that have the name of one of the children themselves (C31). -/
theorem C124_unread (hm : schemaToPy prefixes digest n parent d = .ok m) (he : execModule vars [] limit m = .ok (env, s))
    (hd : (m.classes.map (·.name)).Nodup) (hT : moduleTable compile iso env s = some T)
    {ct : DComplex} (hct : ct ∈ d.complexTypes) {N : Str} (hn : ct.name = some N) {cs : List DContent}
    (hl : Layers prefixes d ct cs) (hp : ∀ c ∈ cs, PlainContent c) (hdist : (layerNames cs).Nodup) (hcr : py"create" ∉ layerNames cs)
    {ns : Str} (hns : d.targetNamespace = some ns)
    (hplain : PlainText '\'' ns) {form : Str} (hform : d.elementFormDefault = some form) (hplain' : PlainText '\'' form)
    (hch : ∃ x c y, cs = x ++ c :: y ∧ c.IsChoice ∧ ∀ c' ∈ y, c'.NoOrder)
    {q : QName} (hq : q.loc ≠ []) (hne : ∀ e ∈ (cs.map (·.elements)).flatten, ∀ x, e.name = some x → q.loc ≠ x ∧ q.loc ≠ pyName x)
    {K k : Nat} {as : List (QName × Str)} {t : Option Str} {ks : List Xml} {v : Val}
    (hv : parseCls T K k (env.idOf (capName N)) (.elem q as t ks) = .ok v) {e : DElement} (hem : e ∈ (cs.map (·.elements)).flatten)
    (hty : e.typed = true) {x : Str} (hx : e.name = some x) :
    (e.type.isSome ∧ e.Many → v.attr (pyName x) = some (.list true [])) ∧ (¬ (e.type.isSome ∧ e.Many) → v.attr (pyName x) = some Val.none) := by
  obtain ⟨-, -, hc, -, hsane⟩ := C86_class hm he hd hT hct hn hl hp hdist hcr hns hplain hform hplain'
  obtain ⟨-, hfields⟩ := C86_split hm he hd hT hct hn hl hp hdist hcr
  have hall := hfields.mem
  cases k with
  | zero => cases hv
  | succ k =>
    obtain ⟨f, hf, -, -, hef, -⟩ := hall.mem_left (List.mem_filter.2 ⟨hem, hty⟩)
    have hkind := elem_kind hef hty
    have hfm : f ∈ (T (env.idOf (capName N))).fields := (List.mem_filter.1 hf).1
    obtain ⟨w, hw, hev⟩ := C31_other_fields T hsane.names K k _ (hc.2 hch) q as t ks v hv f
      (List.mem_filter.2 ⟨hfm, by rcases hkind with h | h <;> rw [h] <;> rfl⟩) (by
        rintro ⟨pre, post, _, hcl, _⟩
        have := hne e hem x hx
        rcases elem_claims hef hx hq hcl with h | h
        · exact this.1 h
        · exact this.2 h)
    obtain ⟨y, hy, hname, -⟩ := hef.name
    rw [hx] at hy
    injection hy with hy
    subst hy
    rw [hname] at hw
    rw [hw]
    unfold EmptyValue at hev
    refine ⟨fun hm => ?_, fun hm => ?_⟩
    · rw [if_pos (hef.many hm.1 hm.2).1] at hev
      rw [hev]
    · have hk : f.kind = .element := by
        cases ht : e.type with
        | some ty => exact (hef.one (by rw [ht]; rfl) fun h => hm ⟨by rw [ht]; rfl, h⟩).1
        | none =>
          refine (hef.inPlace ?_).1
          unfold DElement.typed at hty
          rw [ht] at hty
          simpa using hty
      rw [if_neg (by rw [hk]; simp), hef.bare.2] at hev
      rw [acceptItem_none hev]

/-- **C124 (nothing comes back).** So nothing of what an instance of such a class holds for elements survives writing and reading. -/
theorem C124_lost (hm : schemaToPy prefixes digest n parent d = .ok m) (he : execModule vars [] limit m = .ok (env, s))
    (hd : (m.classes.map (·.name)).Nodup) (hT : moduleTable compile iso env s = some T)
    {ct : DComplex} (hct : ct ∈ d.complexTypes) {N : Str} (hn : ct.name = some N) {cs : List DContent}
    (hl : Layers prefixes d ct cs) (hp : ∀ c ∈ cs, PlainContent c) (hdist : (layerNames cs).Nodup) (hcr : py"create" ∉ layerNames cs)
    {ns : Str} (hns : d.targetNamespace = some ns)
    (hplain : PlainText '\'' ns) {form : Str} (hform : d.elementFormDefault = some form) (hplain' : PlainText '\'' form)
    (hch : ∃ x c y, cs = x ++ c :: y ∧ c.IsChoice ∧ ∀ c' ∈ y, c'.NoOrder)
    {tag : Str} (hq : tag ≠ []) (hne : ∀ e ∈ (cs.map (·.elements)).flatten, ∀ x, e.name = some x → tag ≠ x ∧ tag ≠ pyName x)
    {D K k : Nat} {v v' : Val} {ns' : Option Str} {qf : Bool} {doc : Xml} (hw : toXml T D v tag ns' qf = .ok doc)
    (hv : parseCls T K k (env.idOf (capName N)) doc = .ok v') {e : DElement} (hem : e ∈ (cs.map (·.elements)).flatten)
    (hty : e.typed = true) {x : Str} (hx : e.name = some x) :
    v'.attr (pyName x) = some Val.none ∨ v'.attr (pyName x) = some (.list true []) := by
  cases v with
  | inst c fs y =>
    simp only [toXml, bind_eq_ok] at hw
    obtain ⟨o, -, hw⟩ := hw
    injection hw with hw
    rw [← hw] at hv
    have hloc : (QName.mk' ns' tag).loc = tag := by
      unfold QName.mk'
      split <;> rfl
    have := C124_unread hm he hd hT hct hn hl hp hdist hcr hns hplain hform hplain' hch (q := QName.mk' ns' tag) (by rw [hloc]; exact hq)
      (by rw [hloc]; exact hne) hv hem hty hx
    by_cases hm : e.type.isSome ∧ e.Many
    · exact .inr (this.1 hm)
    · exact .inl (this.2 hm)
  | _ => cases hw

end

/-- **C124 (writing).** Nothing keeps an instance from holding several alternatives of a choice: each is written. -/
theorem C124_several (T : Table) (n : Nat) (c c' : ClsId) (vals : List (Str × Val)) (x : Option Xml) (ns : Option Str) (q : Bool)
    (hh : (T c).header = false) (o : Out) (h : renderCls T (n + 1) c (.inst c' vals x) ns q = .ok o) (f g : Field)
    (hf : f ∈ (T c').fields) (hg : g ∈ (T c').fields) (hkf : f.kind = .element) (hkg : g.kind = .element) {a b : Val}
    (hvf : Dict.get? vals f.name = some a) (hvg : Dict.get? vals g.name = some b) (ha : a ≠ Val.none) (hb : b ≠ Val.none) :
    (∃ k ∈ o.kids, f.Claims k) ∧ ∃ k ∈ o.kids, g.Claims k := by
  have key : ∀ f ∈ (T c').fields, f.kind = .element → ∀ a, Dict.get? vals f.name = some a → a ≠ Val.none → ∃ k ∈ o.kids, f.Claims k := by
    intro f hf hk a hv ha
    obtain ⟨pre, post, hs⟩ := List.append_of_mem hf
    obtain ⟨kpre, ks, kpost, v, h1, h2, h3, _⟩ := C23_order T n c c' vals x ns q hh o h pre post f hs
    rw [hv] at h2
    injection h2 with h2
    subst h2
    cases h3 with
    | @single _ kid _ _ hc =>
      refine ⟨kid, by rw [h1]; simp, ?_⟩
      have := child_claimed hc
      cases kid with
      | elem q a t s =>
        refine ⟨q, a, t, s, rfl, ?_⟩
        simpa [Field.claims] using this
      | comment => cases this
      | pi => cases this
    | absent => exact absurd rfl ha
    | «attribute» h => rw [hk] at h; cases h
    | list h => rw [hk] at h; cases h
    | noName h => rw [hk] at h; cases h
    | noValue h => rw [hk] at h; cases h
    | named h => rw [hk] at h; cases h
    | noNameText h => rw [hk] at h; cases h
    | group h => rcases h with h | h <;> rw [hk] at h <;> cases h
    | groupAsText h => rcases h with h | h <;> rw [hk] at h <;> cases h
    | other h => rcases h with h | h <;> rw [hk] at h <;> cases h
  exact ⟨key f hf hkf a hvf ha, key g hg hkg b hvg hb⟩

/-! ### Examples -/

namespace ExChoice

/-- A payment is made by card or in cash. -/
def payDoc : DSchema where
  targetNamespace := some py"urn:p"
  elementFormDefault := some py"qualified"
  complexTypes :=
    [{ name := some py"payment"
       content := { choice := some [{ name := some py"card", type := some py"xs:string" }, { name := some py"cash", type := some py"xs:int" }] } }]

/-- A payment by card is written as it should be, but comes back empty; one with both is written, too. -/
example : ∃ m env s T, schemaToPy [some py"xs"] (fun _ => py"01234") 5 none payDoc = .ok m ∧ execModule [] [] 10 m = .ok (env, s) ∧
    moduleTable (fun _ => intPattern) (fun _ => .error .valueError) env s = some T ∧
    toXml T 5 (.inst (env.idOf py"Payment") [(py"card", .atom (.str py"x1")), (py"cash", Val.none)] none) py"payment" (some py"urn:p") true =
      .ok (.elem ⟨some py"urn:p", py"payment"⟩ [] none [.elem ⟨some py"urn:p", py"card"⟩ [] (some py"x1") []]) ∧
    parseCls T 5 5 (env.idOf py"Payment") (.elem ⟨some py"urn:p", py"payment"⟩ [] none [.elem ⟨some py"urn:p", py"card"⟩ [] (some py"x1") []]) =
      .ok (.inst (env.idOf py"Payment") [(py"card", Val.none), (py"cash", Val.none)]
        (some (.elem ⟨some py"urn:p", py"payment"⟩ [] none [.elem ⟨some py"urn:p", py"card"⟩ [] (some py"x1") []]))) ∧
    toXml T 5 (.inst (env.idOf py"Payment") [(py"card", .atom (.str py"x1")), (py"cash", .atom (.int 3))] none) py"payment" (some py"urn:p") true =
      .ok (.elem ⟨some py"urn:p", py"payment"⟩ [] none [.elem ⟨some py"urn:p", py"card"⟩ [] (some py"x1") [],
        .elem ⟨some py"urn:p", py"cash"⟩ [] (some py"3") []]) :=
  ⟨_, _, _, _, rfl, rfl, rfl, rfl, rfl, rfl⟩

end ExChoice

end Soapfish
