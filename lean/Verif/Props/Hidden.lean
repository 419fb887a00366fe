import Verif.Hidden
import Verif.Props.Render
import Verif.Props.CodeFields
/-
Fields whose names are those of methods (soapfish/xsd.py:868-1013).
-/
set_option maxRecDepth 8000
namespace Soapfish

/-- The methods of complex types that are looked up in instances and classes. -/
def methodNames : List Str := [py"accept", py"render", py"xml", py"parse_xmlelement"]

/-- The class has a field of this name. -/
def HasField (T : Table) (c : ClsId) (name : Str) : Prop := ∃ f ∈ (T c).fields, f.name = name

theorem hides_iff {T : Table} {c : ClsId} {name : Str} : Hidden.hides T c name = true ↔ HasField T c name := by
  unfold Hidden.hides HasField
  simp

section
variable {T : Table} (h : ∀ c, ∀ m ∈ methodNames, ¬ HasField T c m)
include h

theorem not_hidden (c : ClsId) {m : Str} (hm : m ∈ methodNames) : Hidden.hides T c m = false := by
  cases hh : Hidden.hides T c m with
  | false => rfl
  | true => exact absurd (hides_iff.1 hh) (h c m hm)

theorem acceptItem_unhidden : Hidden.acceptItem T = Field.acceptItem T := by
  funext f v
  unfold Hidden.acceptItem Field.acceptItem Hidden.typeAccept
  cases ht : f.type with
  | complex c => simp only [not_hidden h c (m := py"accept") (by decide)]; rfl
  | _ => rfl

theorem accept_unhidden : (fun nw f v => Hidden.accept T nw f v) = fun nw f v => Field.accept T nw f v := by
  funext nw f v
  unfold Hidden.accept Field.accept
  rw [acceptItem_unhidden h]

theorem newInst_unhidden : Hidden.newInst T = newInst T := by
  funext n
  induction n with
  | zero => rfl
  | succ n ih =>
    funext c
    unfold Hidden.newInst newInst
    rw [ih]
    have := accept_unhidden h
    simp only [fun nw f v => congrFun (congrFun (congrFun this nw) f) v]

theorem setAttr_unhidden : Hidden.setAttr T = setAttr T := by
  funext nw v name w
  have := accept_unhidden h
  unfold Hidden.setAttr setAttr
  simp only [fun nw f v => congrFun (congrFun (congrFun this nw) f) v]
  rfl

theorem renderCls_unhidden : Hidden.renderCls T = renderCls T := by
  funext n
  induction n with
  | zero => rfl
  | succ n ih =>
    funext c v ns q
    unfold Hidden.renderCls renderCls
    rw [ih, not_hidden h c (m := py"render") (by decide)]
    rfl

theorem parseElement_unhidden : Hidden.parseElement T = parseElement T := by
  funext nw pc f inst x
  unfold Hidden.parseElement parseElement
  rw [setAttr_unhidden h]

theorem parseItem_unhidden : Hidden.parseItem T = parseItem T := by
  funext nw pc f inst x
  unfold Hidden.parseItem parseItem Hidden.appendAttr appendAttr Hidden.typedAppend typedAppend
  rw [acceptItem_unhidden h]
  rfl

theorem parseOne_unhidden : Hidden.parseOne T = parseOne T := by
  funext nw pc f inst x
  unfold Hidden.parseOne parseOne
  rw [parseItem_unhidden h, parseElement_unhidden h]

theorem parseChoice_unhidden : Hidden.parseChoice T = parseChoice T := by
  funext nw pc x inst l
  induction l with
  | nil => rfl
  | cons f l ih =>
    unfold Hidden.parseChoice parseChoice
    rw [parseOne_unhidden h, ih]
    rfl

theorem parseCls_unhidden (N : Nat) : Hidden.parseCls T N = parseCls T N := by
  funext n
  induction n with
  | zero => rfl
  | succ n ih =>
    funext c x
    unfold Hidden.parseCls parseCls
    have e1 : Hidden.parseAttr T = parseAttr T := by
      funext nw f inst x
      unfold Hidden.parseAttr parseAttr
      rw [setAttr_unhidden h]
    have e2 : Hidden.parseSeq T = parseSeq T := by
      funext nw pc x inst f
      unfold Hidden.parseSeq parseSeq
      rw [parseOne_unhidden h]
    rw [ih, not_hidden h c (m := py"parse_xmlelement") (by decide), newInst_unhidden h, e1, e2, parseChoice_unhidden h, parseElement_unhidden h]
    rfl

/-- **C125 (other names).** Unless fields are called `accept`, `render`, `xml` or `parse_xmlelement`, instances are made, written and read
as the other properties say. -/
theorem C125_same (N n : Nat) :
    Hidden.newInst T n = newInst T n ∧ Hidden.construct T n = construct T n ∧ Hidden.renderCls T n = renderCls T n ∧
    Hidden.toXml T n = toXml T n ∧ Hidden.parseCls T N n = parseCls T N n := by
  refine ⟨by rw [newInst_unhidden h], ?_, by rw [renderCls_unhidden h], ?_, by rw [parseCls_unhidden h]⟩
  · funext c kwargs
    unfold Hidden.construct construct
    rw [newInst_unhidden h, setAttr_unhidden h]
  · funext v tagname ns q
    unfold Hidden.toXml toXml
    cases v with
    | inst c fs x =>
      simp only [not_hidden h c (m := py"xml") (by decide), renderCls_unhidden h]
      rfl
    | _ => rfl

end

theorem mapE_never {α β : Type} {f : α → Except Exn β} {l : List α} {a : α} (ha : a ∈ l) (hf : ∀ b, f a ≠ .ok b) (r : List β) :
    mapE f l ≠ .ok r := by
  induction l generalizing r with
  | nil => cases ha
  | cons x l ih =>
    intro h
    simp only [mapE, bind_eq_ok] at h
    obtain ⟨b, hb, bs, hbs, _⟩ := h
    rcases List.mem_cons.1 ha with rfl | ha
    · exact hf _ hb
    · exact ih ha _ hbs

/-- **C125 (accept).** If a class has a field called `accept`, then classes with an element of this type can have no instances, -/
theorem C125_accept (T : Table) {d : ClsId} (hd : HasField T d py"accept") {c : ClsId} {f : Field} (hf : f ∈ (T c).fields)
    (hk : f.kind = .element) (ht : f.type = .complex d) (hdef : f.default ≠ .nil) (n : Nat) (v : Val) : Hidden.newInst T n c ≠ .ok v := by
  intro h
  cases n with
  | zero => cases h
  | succ n =>
    simp only [Hidden.newInst, bind_eq_ok] at h
    obtain ⟨fs, hfs, _⟩ := h
    refine mapE_never hf (fun b hb => ?_) _ hfs
    simp only [bind_eq_ok] at hb
    obtain ⟨w, hw, w', hw', _⟩ := hb
    unfold emptyValue at hw
    rw [hk] at hw
    injection hw with hw
    subst hw
    unfold Hidden.accept at hw'
    rw [if_neg (by rw [hk]; simp)] at hw'
    simp only [bind_eq_ok] at hw'
    obtain ⟨_, _, hw'⟩ := hw'
    unfold Hidden.acceptItem at hw'
    rw [if_neg (by rw [isNil_iff]; exact hdef), ht] at hw'
    simp only [Hidden.typeAccept, hides_iff.2 hd, if_true] at hw'
    cases hw'

/-- nor can they read any document, -/
theorem C125_accept_parse (T : Table) {d : ClsId} (hd : HasField T d py"accept") {c : ClsId} {f : Field} (hf : f ∈ (T c).fields)
    (hk : f.kind = .element) (ht : f.type = .complex d) (hdef : f.default ≠ .nil) (N n : Nat) (x : Xml) (v : Val) :
    Hidden.parseCls T N n c x ≠ .ok v := by
  intro h
  cases n with
  | zero => cases h
  | succ n =>
    unfold Hidden.parseCls at h
    split at h
    · cases h
    · simp only [bind_eq_ok] at h
      obtain ⟨i, hi, _⟩ := h
      exact C125_accept T hd hf hk ht hdef N i hi

/-- and lists of such elements stay empty: nothing but NIL can be appended. -/
theorem C125_accept_items (T : Table) {d : ClsId} (hd : HasField T d py"accept") {f : Field} (ht : f.type = .complex d)
    (nw : ClsId → Except Exn Val) (items : List Val) (v : Val) (hv : v ≠ .nil) (r : List Val) : Hidden.typedAppend T nw f items v ≠ .ok r := by
  intro h
  simp only [Hidden.typedAppend, bind_eq_ok] at h
  obtain ⟨_, _, w, hw, _⟩ := h
  unfold Hidden.acceptItem at hw
  rw [if_neg (by rw [isNil_iff]; exact hv), ht] at hw
  simp only [Hidden.typeAccept, hides_iff.2 hd, if_true] at hw
  cases hw

/-- **C125 (render).** Instances of a class with a field called `render` cannot be written, by themselves -/
theorem C125_render (T : Table) {c : ClsId} (hc : HasField T c py"render") (n : Nat) (v : Val) (ns : Option Str) (q : Bool) :
    (∀ o, Hidden.renderCls T n c v ns q ≠ .ok o) ∧
    ∀ fs x tag doc, Hidden.toXml T n (.inst c fs x) tag ns q ≠ .ok doc := by
  have key : ∀ v o, Hidden.renderCls T n c v ns q ≠ .ok o := by
    intro v o h
    cases n with
    | zero => cases h
    | succ n =>
      unfold Hidden.renderCls at h
      rw [if_pos (hides_iff.2 hc)] at h
      cases h
  refine ⟨key v, fun fs x tag doc h => ?_⟩
  simp only [Hidden.toXml] at h
  split at h
  · cases h
  · simp only [bind_eq_ok] at h
    obtain ⟨o, ho, _⟩ := h
    exact key _ o ho

/-- or as part of others. -/
theorem C125_render_inside (T : Table) {d : ClsId} (hd : HasField T d py"render") {c c' : ClsId} {f : Field} (hf : f ∈ (T c').fields)
    (hk : f.kind = .element) (ht : f.type = .complex d) {vals : List (Str × Val)} {w : Val} (hw : Dict.get? vals f.name = some w)
    (hn : w ≠ Val.none) (hnil : w ≠ .nil) (n : Nat) (x : Option Xml) (ns : Option Str) (q : Bool) (o : Out) :
    Hidden.renderCls T n c (.inst c' vals x) ns q ≠ .ok o := by
  intro h
  cases n with
  | zero => cases h
  | succ n =>
    unfold Hidden.renderCls at h
    split at h
    · cases h
    · simp only at h
      split at h
      · cases h
      · obtain ⟨parts, hp, _⟩ := renderFields_parts h
        obtain ⟨p, _, v, hv, hr⟩ := hp.mem_left hf
        rw [hw] at hv
        injection hv with hv
        subst hv
        unfold renderField at hr
        rw [hk] at hr
        simp only at hr
        rw [if_neg (by rw [isNone_iff]; exact hn)] at hr
        simp only [bind_eq_ok] at hr
        obtain ⟨k, hk', _⟩ := hr
        unfold renderChild at hk'
        rw [if_neg (by rw [isNil_iff]; exact hnil), ht] at hk'
        simp only [renderType, bind_eq_ok] at hk'
        obtain ⟨_, ⟨o', ho', _⟩, _⟩ := hk'
        exact (C125_render T hd n w _ q).1 _ ho'

/-- **C125 (xml, parse_xmlelement).** A field called `xml` hides the method that writes an instance, one called `parse_xmlelement` the one that
reads. -/
theorem C125_methods (T : Table) (c : ClsId) :
    (HasField T c py"xml" → ∀ n fs x tag ns q, Hidden.toXml T n (.inst c fs x) tag ns q = .error .typeError) ∧
    (HasField T c py"parse_xmlelement" → ∀ N n x, Hidden.parseCls T N (n + 1) c x = .error .typeError) := by
  refine ⟨fun h n fs x tag ns q => ?_, fun h N n x => ?_⟩
  · simp only [Hidden.toXml, hides_iff.2 h, if_true]
  · unfold Hidden.parseCls
    rw [if_pos (hides_iff.2 h)]

/-- **C125 (generated code).** Code generation renames only keywords: an element or attribute with the name of a method gives a field of
this name. -/
theorem C125_generated {prefixes : List (Option Str)} {digest : Str → Str} {n : Nat} {parent : Option Str} {d : DSchema} {m : PyModule}
    (hm : schemaToPy prefixes digest n parent d = .ok m) {ct : DComplex} (hct : ct ∈ d.complexTypes) {N : Str} (hn : ct.name = some N)
    (hc : ct.complexContent = none) {e : DElement} (he : e ∈ ct.content.elements) {x : Str} (hx : x ∈ methodNames) (hex : e.name = some x)
    (hr : e.ref = none) (ht : e.type ≠ some []) (hb : ¬ (e.type.isSome ∧ e.simpleType.isSome)) (hty : e.typed = true) :
    ∃ c ∈ m.classes, c.name = capName N ∧ ∃ f ∈ c.fields, f.target = x := by
  obtain ⟨k, c, _, h1, h2, _⟩ := schemaToPy_complex hm hct
  rw [hn] at h1
  obtain ⟨e1, _, _, _, _, _, as, gs, es, _, _, h5, h6⟩ := complexBody_eq (complexClass_plain hc h1)
  refine ⟨c, h2, e1, ?_⟩
  have hel : (contentElements ct.content).2 = ct.content.elements := by
    unfold contentElements DContent.elements
    cases ct.content.sequence <;> cases ct.content.all <;> cases ct.content.choice <;> rfl
  rw [hel] at h5
  obtain ⟨fs, hfs, hf⟩ := h5.mem_left he
  have hpy : pyName x = x := by
    have : ∀ x ∈ methodNames, pyName x = x := by decide +kernel
    exact this x hx
  have : ∃ f ∈ fs, f.target = x := by
    rcases elementFields_cases hf hr ht hb hex with ⟨h, _⟩ | ⟨_, _, _, _, _, _, _, _, _, rfl⟩ | ⟨_, _, _, _, _, _, _, rfl⟩ | ⟨_, _, _, _, _, rfl, _⟩
    · rw [h] at hty; cases hty
    · exact ⟨_, List.mem_cons_self .., hpy⟩
    · exact ⟨_, List.mem_cons_self .., hpy⟩
    · exact ⟨_, List.mem_cons_self .., hpy⟩
  obtain ⟨f, hff, hft⟩ := this
  exact ⟨f, by rw [h6]; simp only [List.mem_append, List.mem_flatten]; exact .inr ⟨fs, hfs, hff⟩, hft⟩

theorem import_bind_ok {α β : Type} {x : Except ImportErr α} {f : α → Except ImportErr β} {b : β} :
    (x >>= f) = .ok b ↔ ∃ a, x = .ok a ∧ f a = .ok b := by
  cases x with
  | error e => simp [bind, Except.bind]
  | ok a => simp [bind, Except.bind]

/-- **C125 (create).** A generated class with a class method `create` has no field of this name, neither its own nor an inherited one:
the class method, which comes after the fields, takes the name. -/
theorem C125_create {env env' : PyEnv} {c : PyClassDef} (hx : execClass env c = .ok env') (hc : c.create.isSome = true) {o : ComplexObj}
    (ho : env'.get c.name = some (.complex o)) : ∀ p ∈ o.fields, p.1 ≠ py"create" := by
  unfold execClass at hx
  simp only [import_bind_ok] at hx
  obtain ⟨b, _, hx⟩ := hx
  cases b with
  | simple s =>
    simp only [import_bind_ok] at hx
    obtain ⟨_, _, _, _, _, _, _, _, hx⟩ := hx
    injection hx with hx
    subst hx
    simp [PyEnv.get] at ho
  | complex s =>
    simp only [import_bind_ok] at hx
    obtain ⟨_, _, _, _, fs, _, own, how, hx⟩ := hx
    injection hx with hx
    subst hx
    simp [PyEnv.get] at ho
    subst ho
    obtain ⟨l, hl⟩ := Option.isSome_iff_exists.1 hc
    rw [hl] at how
    simp only [execCreate] at how
    · split at how
      · cases how
      · injection how with how
        subst how
        intro p hp
        simp only [inheritFields, hl, List.mem_append, List.mem_filter] at hp
        rcases hp with ⟨_, hp⟩ | ⟨_, hp⟩
        · intro h
          simp [h] at hp
        · simpa using hp

/-! ### Examples -/

namespace ExHidden

/-- `class Terms(xsd.ComplexType): accept = xsd.Element(xsd.String)`, `class Order(xsd.ComplexType): terms = xsd.Element(Terms)`,
`class Page(xsd.ComplexType): render = xsd.Element(xsd.String)` and `class Book(xsd.ComplexType): page = xsd.Element(Page)` -/
def table : Table := fun c =>
  if c = 0 then { name := py"Terms", mro := [0], fields := [{ name := py"accept", kind := .element, type := .simple (.string {}) }] }
  else if c = 1 then { name := py"Order", mro := [1], fields := [{ name := py"terms", kind := .element, type := .complex 0 }] }
  else if c = 2 then { name := py"Page", mro := [2], fields := [{ name := py"render", kind := .element, type := .simple (.string {}) }] }
  else if c = 3 then { name := py"Book", mro := [3], fields := [{ name := py"page", kind := .element, type := .complex 2 }] }
  else { name := py"Empty", fields := [], mro := [c] }

theorem terms_hides : HasField table 0 py"accept" := ⟨_, List.mem_cons_self .., rfl⟩
theorem page_hides : HasField table 2 py"render" := ⟨_, List.mem_cons_self .., rfl⟩

/-- Terms can be made and written, -/
example : ∃ v, Hidden.construct table 5 0 [(py"accept", .atom (.str py"yes"))] = .ok v ∧
    Hidden.toXml table 5 v py"terms" none false = .ok (.elem ⟨none, py"terms"⟩ [] none [.elem ⟨none, py"accept"⟩ [] (some py"yes") []]) :=
  ⟨_, rfl, rfl⟩

/-- but orders can neither be made nor read, -/
example (n : Nat) (v : Val) : Hidden.newInst table n 1 ≠ .ok v :=
  C125_accept table terms_hides (List.mem_cons_self ..) rfl rfl (by simp) n v

example (N n : Nat) (v : Val) : Hidden.parseCls table N n 1 (.elem ⟨none, py"order"⟩ [] none []) ≠ .ok v :=
  C125_accept_parse table terms_hides (List.mem_cons_self ..) rfl rfl (by simp) N n _ v

/-- and books are read but not written. -/
example : ∃ v, Hidden.parseCls table 5 5 3 (.elem ⟨none, py"book"⟩ [] none [.elem ⟨none, py"page"⟩ [] none [.elem ⟨none, py"render"⟩ [] (some py"x") []]]) = .ok v ∧
    Hidden.toXml table 5 v py"book" none false = .error .typeError := ⟨_, rfl, rfl⟩

/-- With other names instances are made as before. -/
example : ∃ v, Hidden.newInst (fun c => { name := py"Leaf", mro := [c], fields := [{ name := py"accepted", kind := .element, type := .simple (.string {}) }] }) 3 0 = .ok v ∧
    newInst (fun c => { name := py"Leaf", mro := [c], fields := [{ name := py"accepted", kind := .element, type := .simple (.string {}) }] }) 3 0 = .ok v :=
  ⟨_, rfl, rfl⟩

/-- A task that names what to create and what to delete, -/
def taskDoc : DSchema where
  targetNamespace := some py"urn:t"
  complexTypes :=
    [{ name := some py"task"
       content := { sequence := some [{ name := some py"create", type := some py"xs:string" }, { name := some py"delete", type := some py"xs:string" }] } }]

/-- loses the first of these. -/
example : ∃ m env s T, schemaToPy [some py"xs"] (fun _ => py"01234") 5 none taskDoc = .ok m ∧ execModule [] [] 10 m = .ok (env, s) ∧
    moduleTable (fun _ => intPattern) (fun _ => .error .valueError) env s = some T ∧
    (T (env.idOf py"Task")).fields.map (·.name) = [py"delete"] := ⟨_, _, _, _, rfl, rfl, rfl, rfl⟩

/-- A page of a schema document -/
def pageDoc : DSchema where
  targetNamespace := some py"urn:t"
  complexTypes := [{ name := some py"page", content := { sequence := some [{ name := some py"render", type := some py"xs:string" }] } }]

example : ∃ m, schemaToPy [some py"xs"] (fun _ => py"01234") 5 none pageDoc = .ok m ∧
    ∃ c ∈ m.classes, c.name = py"Page" ∧ ∃ f ∈ c.fields, f.target = py"render" := by
  refine ⟨_, rfl, ?_⟩
  exact C125_generated (ct := pageDoc.complexTypes.head (by simp [pageDoc])) (prefixes := [some py"xs"]) (digest := fun _ => py"01234") (n := 5) (parent := none) (d := pageDoc) rfl (List.mem_cons_self ..) rfl rfl
    (List.mem_cons_self ..) (by decide) rfl rfl (by simp) (by simp) rfl

end ExHidden

end Soapfish
