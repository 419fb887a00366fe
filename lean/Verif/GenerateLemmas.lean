import Verif.Spec.Generate
import Verif.SoapLemmas
import Verif.Props.Integers
/-
Lemmas about the generation of XSD documents.
-/
namespace Soapfish

/-! ### Computations that succeed exactly under a condition -/

/-- `x` gives `a` if `P`, and else an exception of kind `E`. -/
def Gives {α : Type} (E : Exn → Prop) (x : Except Exn α) (P : Prop) (a : α) : Prop :=
  (P → x = .ok a) ∧ (¬ P → ∃ e, E e ∧ x = .error e)

namespace Gives
variable {α β σ : Type} {E : Exn → Prop}

theorem ok (a : α) : Gives E (.ok a) True a := ⟨fun _ => rfl, fun h => absurd trivial h⟩

theorem of_eq {x : Except Exn α} {a : α} (h : x = .ok a) : Gives E x True a := ⟨fun _ => h, fun h => absurd trivial h⟩

theorem never {x : Except Exn α} {a : α} {e : Exn} (h : x = .error e) (he : E e) : Gives E x False a :=
  ⟨fun h => h.elim, fun _ => ⟨e, he, h⟩⟩

theorem congr {x : Except Exn α} {P Q : Prop} {a : α} (h : Gives E x P a) (hpq : P ↔ Q) : Gives E x Q a := by
  rw [← propext hpq]; exact h

theorem congr' {x : Except Exn α} {P Q : Prop} {a b : α} (h : Gives E x P a) (hpq : P ↔ Q) (hab : P → a = b) :
    Gives E x Q b :=
  ⟨fun hq => by rw [← hab (hpq.2 hq)]; exact h.1 (hpq.2 hq), fun hq => h.2 fun hp => hq (hpq.1 hp)⟩

theorem bind {x : Except Exn α} {f : α → Except Exn β} {P Q : Prop} {a : α} {b : β} (hx : Gives E x P a)
    (hf : P → Gives E (f a) Q b) : Gives E (x >>= f) (P ∧ Q) b := by
  by_cases hp : P
  · rw [hx.1 hp]
    refine ⟨fun h => (hf hp).1 h.2, fun h => (hf hp).2 fun hq => h ⟨hp, hq⟩⟩
  · obtain ⟨e, he, h⟩ := hx.2 hp
    rw [h]
    exact ⟨fun h => absurd h.1 hp, fun _ => ⟨e, he, rfl⟩⟩

theorem bind_ok {x : Except Exn α} {f : α → Except Exn β} {Q : Prop} {a : α} {b : β} (hx : x = .ok a)
    (hf : Gives E (f a) Q b) : Gives E (x >>= f) Q b := by
  rw [hx]; exact hf

theorem mono {E' : Exn → Prop} {x : Except Exn α} {P : Prop} {a : α} (h : Gives E x P a) (hE : ∀ e, E e → E' e) :
    Gives E' x P a :=
  ⟨h.1, fun hp => by obtain ⟨e, he, hx⟩ := h.2 hp; exact ⟨e, hE e he, hx⟩⟩

theorem map {x : Except Exn α} {P : Prop} {a : α} (h : Gives E x P a) (f : α → β) : Gives E (x.map f) P (f a) :=
  ⟨fun hp => by rw [h.1 hp]; rfl, fun hp => by obtain ⟨e, he, hx⟩ := h.2 hp; exact ⟨e, he, by rw [hx]; rfl⟩⟩

theorem andOk {x : Except Exn α} {P : Prop} {a : α} (h : Gives E x P a) (f : α → β) :
    Gives E (x >>= fun a => .ok (f a)) P (f a) :=
  ⟨fun hp => by rw [h.1 hp]; rfl, fun hp => by obtain ⟨e, he, hx⟩ := h.2 hp; exact ⟨e, he, by rw [hx]; rfl⟩⟩

/-- A loop adding to a list inside a value. -/
theorem fold {mk : List β → σ} {step : σ → α → Except Exn σ} {P : α → Prop} {g : α → β}
    (hs : ∀ items a, Gives E (step (mk items) a) (P a) (mk (items ++ [g a]))) (l : List α) :
    ∀ items, Gives E (foldE step (mk items) l) (∀ a ∈ l, P a) (mk (items ++ l.map g)) := by
  induction l with
  | nil => intro items; exact (Gives.ok _).congr' (by simp) (by simp)
  | cons a l ih =>
    intro items
    refine ((hs items a).bind fun _ => ih (items ++ [g a])).congr' (by simp) fun _ => by simp

theorem mapE {f : α → Except Exn β} {P : α → Prop} {g : α → β} (hf : ∀ a, Gives E (f a) (P a) (g a)) (l : List α) :
    Gives E (Soapfish.mapE f l) (∀ a ∈ l, P a) (l.map g) := by
  induction l with
  | nil => exact (Gives.ok _).congr (by simp)
  | cons a l ih =>
    exact ((hf a).bind fun _ => ih.andOk (g a :: ·)).congr (by simp)

end Gives

/-! ### Rendering -/

/-- Rendering raises nothing but ValueError here. -/
abbrev Renders (x : Except Exn Out) (P : Prop) (o : Out) : Prop := Gives (· = .valueError) x P o

theorem gives_xmlText (s : Str) : Gives (· = .valueError) (xmlText s) (XmlOk s) s :=
  ⟨xmlText_of, fun h => ⟨_, rfl, xmlText_not h⟩⟩

section
variable {T : Table} {rc : RenderCls} {vals : List (Str × Val)} {ns : Option Str} {q : Bool}

theorem renders_nil : Renders (renderFields T rc vals ns q []) True {} := Gives.ok _

theorem renders_cons {f : Field} {fs : List Field} {v : Val} {P Q : Prop} {o os : Out}
    (hv : getAttr vals f.name = .ok v) (hf : Renders (renderField T rc f v ns q) P o)
    (hfs : Renders (renderFields T rc vals ns q fs) Q os) :
    Renders (renderFields T rc vals ns q (f :: fs)) (P ∧ Q) (o.append os) := by
  exact Gives.bind_ok hv (hf.bind fun _ => hfs.andOk o.append)

/-- The attribute a text attribute with an optional value adds. -/
def attrOut (name : Str) : Option Str → Out
  | some s => { attrs := [(⟨none, name⟩, s)] }
  | none => {}

theorem renders_strAttr (name : Str) (required : Bool) (s : Option Str) :
    Renders (renderField T rc (strAttr name required) (optStr s) ns q)
      ((∀ t, s = some t → XmlOk t) ∧ (required = true → s ≠ none)) (attrOut name s) := by
  cases s with
  | none =>
    cases required
    · exact (Gives.ok _).congr (by simp)
    · have h : renderField T rc (strAttr name true) (optStr none) ns q = .error .valueError := rfl
      rw [h]
      exact ⟨by simp, fun _ => ⟨_, rfl, rfl⟩⟩
  | some s =>
    have h : renderField T rc (strAttr name required) (optStr (some s)) ns q =
        (xmlText s >>= fun t => .ok { attrs := [(⟨none, name⟩, t)] }) := rfl
    rw [h]
    exact ((gives_xmlText s).andOk fun t => ({ attrs := [(⟨none, name⟩, t)] } : Out)).congr (by simp)

theorem renders_enumAttr (name : Str) (values : List Str) (required : Bool) (d : Val) (s : Option Str) :
    Renders (renderField T rc (enumAttr name values required d) (optStr s) ns q)
      ((∀ t, s = some t → XmlOk t) ∧ (required = true → s ≠ none)) (attrOut name s) :=
  renders_strAttr (T := T) (rc := rc) (ns := ns) (q := q) name required s

theorem isDigit_xmlChar {c : Char} (h : IsDigit c) : xmlChar c = true := by
  obtain ⟨n, hn, rfl⟩ := h
  have : ∀ n : Fin 10, xmlChar (digitChar n.val) = true := by decide
  exact this ⟨n, hn⟩

theorem intStr_xmlOk (i : Int) : XmlOk (intStr i) := by
  cases i with
  | ofNat n => intro c hc; exact isDigit_xmlChar (natStr_digits n c hc)
  | negSucc n =>
    intro c hc
    rcases List.mem_cons.1 hc with rfl | hc
    · decide
    · exact isDigit_xmlChar (natStr_digits _ c hc)

theorem renders_none {f : Field} (hk : f.kind = .element) : Renders (renderField T rc f Val.none ns q) True {} := by
  refine Gives.of_eq ?_
  unfold renderField
  rw [hk]; rfl

theorem renders_child {f : Field} {c c' : ClsId} {fs : List (Str × Val)} {x : Option Xml} {P : Prop} {o : Out} {loc : Str}
    (ht : f.type = .complex c) (h : Renders (rc c (.inst c' fs x) (childNs f ns) q) P o) :
    Gives (· = .valueError) (renderChild rc f loc (.inst c' fs x) ns q) P (mkElem (childTag f loc ns q) o none) := by
  have e : renderChild rc f loc (.inst c' fs x) ns q =
      ((rc c (.inst c' fs x) (childNs f ns) q >>= fun o => .ok (o, none)) >>= fun p =>
        .ok (mkElem (childTag f loc ns q) p.1 p.2)) := by
    unfold renderChild
    rw [ht]; rfl
  rw [e]
  exact (h.andOk fun o => (o, none)).andOk fun p => mkElem (childTag f loc ns q) p.1 p.2

theorem renders_elem {f : Field} {c c' : ClsId} {fs : List (Str × Val)} {x : Option Xml} {P : Prop} {o : Out}
    (hk : f.kind = .element) (ht : f.type = .complex c) (h : Renders (rc c (.inst c' fs x) (childNs f ns) q) P o) :
    Renders (renderField T rc f (.inst c' fs x) ns q) P { kids := [mkElem (childTag f f.tag ns q) o none] } := by
  unfold renderField
  rw [hk]
  exact (renders_child ht h).andOk fun k => ({ kids := [k] } : Out)

theorem renders_list {α : Type} {f : Field} {c : ClsId} {val : α → Val} {P : α → Prop} {o : α → Out} {l : List α} {t : Bool}
    (hk : f.kind = .list) (ht : f.type = .complex c) (hmin : f.minOccurs = none ∨ f.minOccurs = some 0)
    (hmax : f.maxOccurs = none) (hi : ∀ a, ∃ c' fs x, val a = .inst c' fs x)
    (h : ∀ a, Renders (rc c (val a) (childNs f ns) q) (P a) (o a)) :
    Renders (renderField T rc f (.list t (l.map val)) ns q) (∀ a ∈ l, P a)
      { kids := l.map fun a => mkElem (childTag f f.tag ns q) (o a) none } := by
  unfold renderField
  rw [hk]
  have e : renderList rc f (.list t (l.map val)) ns q =
      (mapE (fun v => renderChild rc f f.tag v ns q) (l.map val) >>= fun kids => .ok { kids := kids }) := by
    unfold renderList
    rw [hmax]
    rcases hmin with hm | hm <;> rw [hm] <;> rfl
  show Renders (renderList rc f (.list t (l.map val)) ns q) _ _
  rw [e]
  have hm : mapE (fun v => renderChild rc f f.tag v ns q) (l.map val) =
      mapE (fun a => renderChild rc f f.tag (val a) ns q) l := by
    clear e
    induction l with
    | nil => rfl
    | cons a l ih => simp only [List.map_cons, mapE, ih]
  rw [hm]
  refine (Gives.mapE (g := fun a => mkElem (childTag f f.tag ns q) (o a) none) (P := P) ?_ l).andOk
    fun kids => ({ kids := kids } : Out)
  intro a
  obtain ⟨c', fs, x, hv⟩ := hi a
  have := h a
  rw [hv] at this ⊢
  exact renders_child ht this

end

/-! ### The objects of a description -/

def Atom.text? : Atom → Option Str
  | .str s => some s
  | _ => Option.none

def enumV (a : Atom) : Val := .inst xEnumeration [(py"value", optStr a.text?)] none

/-- A facet object or None. -/
def facetV (c : ClsId) : Option Str → Val
  | some s => .inst c [(py"value", strV s)] none
  | none => Val.none

/-- The facets of a restriction, in the order of the class. -/
structure Facets where
  pattern : Option Str := none
  minInclusive : Option Str := none
  minExclusive : Option Str := none
  maxExclusive : Option Str := none
  maxInclusive : Option Str := none
  fractionDigits : Option Str := none
  totalDigits : Option Str := none

def restrictionV (base : Str) (enums : List Val) (f : Facets) : Val :=
  .inst xRestriction [(py"base", strV base), (py"enumerations", .list true enums),
    (py"pattern", facetV xPattern f.pattern), (py"minInclusive", facetV xRestrictionValue f.minInclusive),
    (py"minExclusive", facetV xRestrictionValue f.minExclusive),
    (py"maxExclusive", facetV xRestrictionValue f.maxExclusive),
    (py"maxInclusive", facetV xRestrictionValue f.maxInclusive),
    (py"fractionDigits", facetV xRestrictionValue f.fractionDigits),
    (py"totalDigits", facetV xRestrictionValue f.totalDigits),
    (py"length", Val.none), (py"minLength", Val.none), (py"maxLength", Val.none), (py"whiteSpace", Val.none)] none

def simpleTypeV (name : Option Str) (r : Val) : Val :=
  .inst xSimpleType [(py"name", optStr name), (py"restriction", r), (py"list", Val.none)] none

structure ElementParts where
  name : Str
  type : Option Str := none
  minOccurs : Option Int := none
  maxOccurs : Option Bound := none
  nillable : Option Bool := none
  substitutionGroup : Option Str := none
  simpleType : Val := Val.none
  complexType : Val := Val.none

def optBool : Option Bool → Val
  | some b => .atom (.bool b)
  | none => Val.none

def elementV (p : ElementParts) : Val :=
  .inst xElement [(py"name", strV p.name), (py"type", optStr p.type), (py"ref", Val.none),
    (py"minOccurs", optInt p.minOccurs), (py"maxOccurs", optBound p.maxOccurs), (py"nillable", optBool p.nillable),
    (py"substitutionGroup", optStr p.substitutionGroup), (py"simpleType", p.simpleType),
    (py"complexType", p.complexType)] none

def sequenceV (items : List Val) : Val := .inst xSequence [(py"elements", .list true items)] none

def attributeV (name type use : Str) : Val :=
  .inst xAttribute [(py"name", strV name), (py"ref", Val.none), (py"type", strV type), (py"use", strV use),
    (py"simpleType", Val.none)] none

/-- The container in the place of its indicator. -/
def containerV (i : Option Indicator) (items : List Val) (j : Indicator) : Val :=
  if i = some j then sequenceV items else Val.none

def complexTypeV (name : Option Str) (i : Option Indicator) (items attrs : List Val) : Val :=
  .inst xComplexType [(py"name", optStr name), (py"sequence", containerV i items .sequence),
    (py"choice", containerV i items .choice), (py"all", containerV i items .all), (py"complexContent", Val.none),
    (py"attributes", .list true attrs), (py"attributeGroups", .list true [])] none

def importV (nspace : Str) (location : Option Str) : Val :=
  .inst xImport [(py"schemaLocation", optStr location), (py"namespace", strV nspace)] none

def includeV (location : Option Str) : Val := .inst xInclude [(py"schemaLocation", optStr location)] none

def schemaV (tns form : Str) (imports includes simple complex elements : List Val) : Val :=
  .inst xSchema [(py"targetNamespace", strV tns), (py"elementFormDefault", strV form),
    (py"imports", .list true imports), (py"includes", .list true includes), (py"simpleTypes", .list true simple),
    (py"groups", .list true []), (py"attributeGroups", .list true []), (py"complexTypes", .list true complex),
    (py"elements", .list true elements)] none

/-! ### Rendering the objects -/

section
variable (v : Version) (n : Nat)

local notation "rn" k => renderCls (specTable v) k

theorem text_some {a : Atom} {s : Str} : a.text? = some s ↔ a = .str s := by
  cases a <;> simp [Atom.text?]

theorem render_enum (a : Atom) : Renders ((rn (n + 1)) xEnumeration (enumV a) (some nsXsd) true)
    (∃ s, a = .str s ∧ XmlOk s) (attrOut py"value" a.text?) := by
  refine (renders_cons (f := strAttr py"value") (v := optStr a.text?) rfl (renders_strAttr py"value" true a.text?)
    renders_nil).congr' ?_ fun _ => ?_
  · cases a <;> simp [Atom.text?]
  · cases a <;> rfl

theorem render_value {c : ClsId} (hc : c = xPattern ∨ c = xRestrictionValue) (s : Str) :
    Renders ((rn (n + 1)) c (.inst c [(py"value", strV s)] none) (some nsXsd) true) (XmlOk s)
      (attrOut py"value" (some s)) := by
  have key : Renders (renderFields (specTable v) (rn n) [(py"value", strV s)] (some nsXsd) true [strAttr py"value"])
      (XmlOk s) (attrOut py"value" (some s)) :=
    (renders_cons (f := strAttr py"value") (v := optStr (some s)) rfl (renders_strAttr py"value" true (some s))
      renders_nil).congr' (by simp) fun _ => rfl
  rcases hc with rfl | rfl <;> exact key

/-- One facet field of a restriction. -/
theorem render_facet {c : ClsId} (hc : c = xPattern ∨ c = xRestrictionValue) (name : Str) (s : Option Str) :
    Renders (renderField (specTable v) (rn (n + 1)) (elem name c) (facetV c s) (some nsXsd) true)
      (∀ t, s = some t → XmlOk t) { kids := s.toList.map (facetNode name) } := by
  cases s with
  | none => exact (renders_none rfl).congr' (by simp) fun _ => rfl
  | some s =>
    refine (renders_elem (c := c) (c' := c) rfl rfl (render_value v n hc s)).congr' (by simp) fun _ => rfl

def Facets.list (f : Facets) : List (Str × Option Str) :=
  [(py"pattern", f.pattern), (py"minInclusive", f.minInclusive), (py"minExclusive", f.minExclusive),
    (py"maxExclusive", f.maxExclusive), (py"maxInclusive", f.maxInclusive), (py"fractionDigits", f.fractionDigits),
    (py"totalDigits", f.totalDigits)]

/-- The facets that are there. -/
def Facets.shown (f : Facets) : List (Str × Str) := f.list.flatMap fun p => p.2.toList.map fun s => (p.1, s)

theorem render_restriction (base : Str) (enums : List Atom) (f : Facets) :
    Renders ((rn (n + 2)) xRestriction (restrictionV base (enums.map enumV) f) (some nsXsd) true)
      (XmlOk base ∧ EnumsWrite enums ∧ ∀ p ∈ f.shown, XmlOk p.2)
      { attrs := [(⟨none, py"base"⟩, base)],
        kids := enums.map (fun a => mkElem ⟨some nsXsd, py"enumeration"⟩ (attrOut py"value" a.text?) none) ++
          f.shown.map fun p => facetNode p.1 p.2 } := by
  have hp := Or.inl (b := xPattern = xRestrictionValue) (rfl : xPattern = xPattern)
  have hr := Or.inr (a := xRestrictionValue = xPattern) (rfl : xRestrictionValue = xRestrictionValue)
  have hnone : ∀ name, Renders (renderField (specTable v) (rn (n + 1)) (elem name xRestrictionValue) Val.none
      (some nsXsd) true) True {} := fun name => renders_none rfl
  refine (renders_cons (v := optStr (some base)) rfl (renders_strAttr py"base" true (some base)) <|
    renders_cons (v := .list true (enums.map enumV)) rfl
      (renders_list (c := xEnumeration) (val := enumV) rfl rfl (.inl rfl) rfl (fun a => ⟨_, _, _, rfl⟩) (fun a => render_enum v n a)) <|
    renders_cons rfl (render_facet v n hp py"pattern" f.pattern) <|
    renders_cons rfl (render_facet v n hr py"minInclusive" f.minInclusive) <|
    renders_cons rfl (render_facet v n hr py"minExclusive" f.minExclusive) <|
    renders_cons rfl (render_facet v n hr py"maxExclusive" f.maxExclusive) <|
    renders_cons rfl (render_facet v n hr py"maxInclusive" f.maxInclusive) <|
    renders_cons rfl (render_facet v n hr py"fractionDigits" f.fractionDigits) <|
    renders_cons rfl (render_facet v n hr py"totalDigits" f.totalDigits) <|
    renders_cons rfl (hnone py"length") <|
    renders_cons rfl (hnone py"minLength") <|
    renders_cons rfl (hnone py"maxLength") <|
    renders_cons rfl (hnone py"whiteSpace") renders_nil).congr' ?_ fun _ => ?_
  · simp only [Facets.shown, Facets.list, EnumsWrite]
    simp [or_imp, forall_and]
  · simp [Out.append, attrOut, Facets.shown, Facets.list, List.map_append]
    rfl

theorem attrs_one (q : QName) (s : Str) : attrSetAll [] [(q, s)] = [(q, s)] := rfl

theorem render_simpleType (name : Option Str) (base : Str) (enums : List Atom) (f : Facets) :
    Renders ((rn (n + 3)) xSimpleType (simpleTypeV name (restrictionV base (enums.map enumV) f)) (some nsXsd) true)
      ((∀ s, name = some s → XmlOk s) ∧ XmlOk base ∧ EnumsWrite enums ∧ ∀ p ∈ f.shown, XmlOk p.2)
      { attrs := (attrOut py"name" name).attrs, kids := [restrictionDoc base enums f.shown] } := by
  refine (renders_cons rfl (renders_strAttr py"name" false name) <|
    renders_cons rfl (renders_elem (c := xRestriction) rfl rfl (render_restriction v n base enums f)) <|
    renders_cons (f := elem py"list" xList false) rfl (renders_none rfl) renders_nil).congr' ?_ fun h => ?_
  · simp
  · have he : ∀ a ∈ enums, mkElem ⟨some nsXsd, py"enumeration"⟩ (attrOut py"value" a.text?) none =
        facetNode py"enumeration" a.toStr := by
      intro a ha
      obtain ⟨s, rfl, _⟩ := h.2.1.2.1 a ha
      rfl
    rw [List.map_congr_left he]
    cases name <;> rfl

/-- The attributes of an element description. -/
def ElementParts.attrs (p : ElementParts) : List (Str × Str) :=
  [(py"name", p.name)] ++ optAttr py"type" p.type ++ optAttr py"minOccurs" (p.minOccurs.map intStr) ++
    optAttr py"maxOccurs" (p.maxOccurs.map boundText) ++ optAttr py"nillable" (p.nillable.map boolText) ++
    optAttr py"substitutionGroup" p.substitutionGroup

def minField : Field :=
  { name := py"minOccurs", kind := .attribute, type := .simple (.integer (IntKind.integer.facets {})),
    required := false }
def maxField : Field := { name := py"maxOccurs", kind := .attribute, type := .simple .maxOccurs, required := false }
def nilField : Field := { name := py"nillable", kind := .attribute, type := .simple .boolean, required := false }

theorem boolText_xmlOk (b : Bool) : XmlOk (boolText b) := by cases b <;> (unfold XmlOk; decide)

theorem boundText_xmlOk (b : Bound) : XmlOk (boundText b) := by
  cases b with
  | int i => exact intStr_xmlOk i
  | unbounded => show XmlOk py"unbounded"; unfold XmlOk; decide

section
variable {T : Table} {rc : RenderCls} {ns : Option Str} {q : Bool}

theorem renders_min (m : Option Int) : Renders (renderField T rc minField (optInt m) ns q) True
    (attrOut py"minOccurs" (m.map intStr)) := by
  refine Gives.of_eq ?_
  cases m with
  | none => rfl
  | some i =>
    have h : renderField T rc minField (optInt (some i)) ns q =
      (xmlText (intStr i) >>= fun t => .ok { attrs := [(⟨none, py"minOccurs"⟩, t)] }) := rfl
    rw [h, xmlText_of (intStr_xmlOk i)]; rfl

theorem renders_max (m : Option Bound) : Renders (renderField T rc maxField (optBound m) ns q) True
    (attrOut py"maxOccurs" (m.map boundText)) := by
  refine Gives.of_eq ?_
  cases m with
  | none => rfl
  | some b =>
    have h : renderField T rc maxField (optBound (some b)) ns q =
      (xmlText (boundText b) >>= fun t => .ok { attrs := [(⟨none, py"maxOccurs"⟩, t)] }) := by cases b <;> rfl
    rw [h, xmlText_of (boundText_xmlOk b)]; rfl

theorem renders_nillable (m : Option Bool) : Renders (renderField T rc nilField (optBool m) ns q) True
    (attrOut py"nillable" (m.map boolText)) := by
  refine Gives.of_eq ?_
  cases m with
  | none => rfl
  | some b => cases b <;> rfl

end

theorem attrOut_kids (name : Str) (s : Option Str) : (attrOut name s).kids = [] := by cases s <;> rfl
theorem attrOut_attrs (name : Str) (s : Option Str) :
    (attrOut name s).attrs = (optAttr name s).map fun p => (⟨none, p.1⟩, p.2) := by cases s <;> rfl

theorem render_element (p : ElementParts) {P1 P2 : Prop} {k1 k2 : List Xml}
    (h1 : Renders (renderField (specTable v) (rn n) (elem py"simpleType" xSimpleType false) p.simpleType
      (some nsXsd) true) P1 { kids := k1 })
    (h2 : Renders (renderField (specTable v) (rn n) (elem py"complexType" xComplexType) p.complexType
      (some nsXsd) true) P2 { kids := k2 }) :
    Renders ((rn (n + 1)) xElement (elementV p) (some nsXsd) true)
      (XmlOk p.name ∧ (∀ s, p.type = some s → XmlOk s) ∧ (∀ s, p.substitutionGroup = some s → XmlOk s) ∧ P1 ∧ P2)
      { attrs := p.attrs.map fun a => (⟨none, a.1⟩, a.2), kids := k1 ++ k2 } := by
  refine (renders_cons (v := optStr (some p.name)) rfl (renders_strAttr py"name" false (some p.name)) <|
    renders_cons rfl (renders_strAttr py"type" false p.type) <|
    renders_cons (v := optStr none) rfl (renders_strAttr py"ref" false none) <|
    renders_cons rfl (renders_min p.minOccurs) <|
    renders_cons rfl (renders_max p.maxOccurs) <|
    renders_cons rfl (renders_nillable p.nillable) <|
    renders_cons rfl (renders_strAttr py"substitutionGroup" false p.substitutionGroup) <|
    renders_cons rfl h1 <| renders_cons rfl h2 renders_nil).congr' ?_ fun _ => ?_
  · simp
  · simp [Out.append, attrOut_kids, attrOut_attrs, ElementParts.attrs]
    rfl

theorem render_sequence {α : Type} {val : α → Val} {P : α → Prop} {o : α → Out} (l : List α)
    (hi : ∀ a, ∃ c' fs x, val a = .inst c' fs x)
    (h : ∀ a, Renders ((rn n) xElement (val a) (some nsXsd) true) (P a) (o a)) :
    Renders ((rn (n + 1)) xSequence (sequenceV (l.map val)) (some nsXsd) true) (∀ a ∈ l, P a)
      { kids := l.map fun a => mkElem ⟨some nsXsd, py"element"⟩ (o a) none } := by
  refine (renders_cons rfl (renders_list (c := xElement) (val := val) rfl rfl (.inl rfl) rfl hi h) renders_nil).congr' ?_
    fun _ => ?_
  · simp
  · simp only [Out.append, List.append_nil]; rfl

theorem render_attribute (name type use : Str) (ns : Option Str) (q : Bool) :
    Renders ((rn (n + 1)) xAttribute (attributeV name type use) ns q) False {} := by
  refine (renders_cons (v := optStr (some name)) rfl (renders_strAttr py"name" true (some name)) <|
    renders_cons (v := optStr none) rfl (renders_strAttr py"ref" true none) <|
    renders_cons (v := optStr (some type)) rfl (renders_strAttr py"type" true (some type)) <|
    renders_cons (v := optStr (some use)) rfl (renders_strAttr py"use" true (some use)) <|
    renders_cons (f := elem py"simpleType" xSimpleType false) rfl (renders_none rfl) renders_nil).congr' ?_ fun h => ?_
  · simp
  · simp at h

theorem render_container {α : Type} {val : α → Val} {P : α → Prop} {o : α → Out} (l : List α)
    (hi : ∀ a, ∃ c' fs x, val a = .inst c' fs x)
    (h : ∀ a, Renders ((rn n) xElement (val a) (some nsXsd) true) (P a) (o a)) (i : Option Indicator) (j : Indicator) :
    Renders (renderField (specTable v) (rn (n + 1)) (elem j.tagName xSequence) (containerV i (l.map val) j) (some nsXsd) true)
      (i = some j → ∀ a ∈ l, P a)
      { kids := if i = some j then
          [xsdNode j.tagName [] (l.map fun a => mkElem ⟨some nsXsd, py"element"⟩ (o a) none)] else [] } := by
  unfold containerV
  by_cases hj : i = some j
  · rw [if_pos hj, if_pos hj]
    refine (renders_elem (c := xSequence) rfl rfl (render_sequence v n l hi h)).congr' (by simp [hj]) fun _ => ?_
    cases j <;> rfl
  · rw [if_neg hj, if_neg hj]
    exact (renders_none rfl).congr' (by simp [hj]) fun _ => rfl

/-- A description of a complex type: name, indicator, contents of the container, attributes. -/
theorem render_complexType {α : Type} {val : α → Val} {P : α → Prop} {o : α → Out} (name : Option Str)
    (i : Option Indicator) (l : List α) (attrs : List (Str × Str × Str)) (hl : i = none → l = [])
    (hi : ∀ a, ∃ c' fs x, val a = .inst c' fs x)
    (h : ∀ a, Renders ((rn (n + 1)) xElement (val a) (some nsXsd) true) (P a) (o a)) :
    Renders ((rn (n + 3)) xComplexType
        (complexTypeV name i (l.map val) (attrs.map fun a => attributeV a.1 a.2.1 a.2.2)) (some nsXsd) true)
      (attrs = [] ∧ (∀ s, name = some s → XmlOk s) ∧ ∀ a ∈ l, P a)
      { attrs := (attrOut py"name" name).attrs,
        kids := i.toList.map fun j =>
          xsdNode j.tagName [] (l.map fun a => mkElem ⟨some nsXsd, py"element"⟩ (o a) none) } := by
  refine (renders_cons rfl (renders_strAttr py"name" false name) <|
    renders_cons rfl (render_container v (n + 1) l hi h i .sequence) <|
    renders_cons rfl (render_container v (n + 1) l hi h i .choice) <|
    renders_cons rfl (render_container v (n + 1) l hi h i .all) <|
    renders_cons (f := elem py"complexContent" xComplexContent) rfl (renders_none rfl) <|
    renders_cons rfl (renders_list (c := xAttribute) (val := fun a : Str × Str × Str => attributeV a.1 a.2.1 a.2.2) rfl rfl
      (.inl rfl) rfl (fun a => ⟨_, _, _, rfl⟩) (fun a => render_attribute v (n + 1) a.1 a.2.1 a.2.2 _ _)) <|
    renders_cons (v := .list true (([] : List Val).map id)) rfl (renders_list (c := xAttributeGroupReference) (P := fun _ => False) (o := fun _ => {})
      (val := fun _ : Empty => Val.none) (l := []) rfl rfl
      (.inl rfl) rfl nofun nofun) renders_nil).congr' ?_ fun h => ?_
  · cases attrs with
    | nil =>
      cases i with
      | none => simp [hl rfl]
      | some i => cases i <;> simp
    | cons a as =>
      exact ⟨fun h => (h.2.2.2.2.2.1 a (by simp)).elim, fun h => absurd h.1 (by simp)⟩
  · have ha : attrs = [] := by
      cases attrs with
      | nil => rfl
      | cons a as => exact (h.2.2.2.2.2.1 a (by simp)).elim
    subst ha
    cases i with
    | none => cases name <;> rfl
    | some i => cases i <;> cases name <;> rfl

end

end Soapfish
