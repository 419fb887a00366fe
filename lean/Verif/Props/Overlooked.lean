import Verif.Spec.Overlooked
import Verif.DescribeLemmas
import Verif.Props.Parse
import Verif.Props.Derived
import Verif.Props.Inline
import Verif.Props.Hidden
/-
What of an XSD document the generators do not look at (soapfish/xsdspec.py): C134.
-/
set_option maxRecDepth 8000
namespace Soapfish

/-- The class of soapfish/xsdspec.py for a part of a document. -/
def Construct.cls : Construct → ClsId
  | .schema => xSchema | .import_ => xImport | .include_ => xInclude | .simpleType => xSimpleType
  | .facets => xRestriction | .enumeration => xEnumeration | .pattern => xPattern | .bound => xRestrictionValue
  | .list => xList | .element => xElement | .particles => xSequence | .attribute => xAttribute
  | .attributeGroup => xAttributeGroup | .attributeGroupRef => xAttributeGroupReference | .derivation => xExtension
  | .complexContent => xComplexContent | .complexType => xComplexType | .group => xGroup

/-- `f.type = .complex c`, as a test -/
def FType.isCls (c : ClsId) : FType → Bool
  | .complex c' => c' = c
  | _ => false

theorem isCls_iff {c : ClsId} {t : FType} : t.isCls c = true ↔ t = .complex c := by
  cases t with
  | complex c' => simp [FType.isCls]
  | simple s => simp [FType.isCls]
  | any => simp [FType.isCls]

theorem overlooked_attrs (v : Version) (c : Construct) : ∀ f ∈ (specTable v c.cls).attrs, f.name ∈ c.attributes := by
  cases v <;> cases c <;> decide +kernel

theorem overlooked_shape (v : Version) (c : Construct) :
    (specTable v c.cls).groups.isEmpty = true ∧ (specTable v c.cls).choice = false := by
  cases v <;> cases c <;> decide +kernel

theorem overlooked_names (v : Version) (c : Construct) : ∀ f ∈ (specTable v c.cls).elems, ∀ n ∈ xsdVocabulary,
    f.matchesTag ⟨none, n⟩ = true → n ∈ c.children.map (·.1) := by
  cases v <;> cases c <;> decide +kernel

theorem overlooked_types (v : Version) (c : Construct) : ∀ f ∈ (specTable v c.cls).elems, ∀ p ∈ c.children,
    f.matchesTag ⟨none, p.1⟩ = true → f.type.isCls p.2.cls = true := by
  cases v <;> cases c <;> decide +kernel

theorem matchesTag_loc (f : Field) (q : QName) : f.matchesTag q = f.matchesTag ⟨none, q.loc⟩ := rfl

/-- What is read alike. -/
inductive AlikeXsd : ClsId → Xml → Xml → Prop where
  | elem {c q q' a a' t t' k k'} : SameAttributes c a a' → SameParts c k k' →
      AlikeXsd c.cls (.elem q a t k) (.elem q' a' t' k')

theorem sameParts_find (v : Version) {c : Construct} {k k' : List Xml} (h : SameParts c k k') :
    ∀ f ∈ (specTable v c.cls).elems, ∀ l, findSub f k = .ok l →
      ∃ l', findSub f k' = .ok l' ∧ All2 (SubSim AlikeXsd f) l l' := by
  induction h with
  | nil => intro f _ l hl; injection hl with hl; subst hl; exact ⟨[], rfl, .nil⟩
  | left hu _ ih =>
    intro f hf l hl
    rcases hu with rfl | ⟨q, a, t, k, rfl, hq, hn⟩
    · exact ih f hf l hl
    · have hm : f.matchesTag q = false := by
        cases hm : f.matchesTag q with
        | false => rfl
        | true => exact absurd (overlooked_names v _ f hf _ hq (by rw [← matchesTag_loc]; exact hm)) hn
      simp only [findSub, hm, bind_eq_ok] at hl
      obtain ⟨r, hr, hl⟩ := hl
      injection hl with hl
      exact ih f hf l (by rw [hr, ← hl]; rfl)
  | right hu _ ih =>
    intro f hf l hl
    obtain ⟨l', hl', ha⟩ := ih f hf l hl
    rcases hu with rfl | ⟨q, a, t, k, rfl, hq, hn⟩
    · exact ⟨l', hl', ha⟩
    · have hm : f.matchesTag q = false := by
        cases hm : f.matchesTag q with
        | false => rfl
        | true => exact absurd (overlooked_names v _ f hf _ hq (by rw [← matchesTag_loc]; exact hm)) hn
      exact ⟨l', by simp only [findSub, hl', hm]; rfl, ha⟩
  | @both c c' q q' a a' t t' k k' ks ks' hc hq hat hk _ _ ih =>
    intro f hf l hl
    have hmm : f.matchesTag q' = f.matchesTag q := by rw [matchesTag_loc f q', matchesTag_loc f q, hq]
    simp only [findSub, bind_eq_ok] at hl
    obtain ⟨r, hr, hl⟩ := hl
    injection hl with hl
    obtain ⟨r', hr', ha⟩ := ih f hf r hr
    cases hm : f.matchesTag q with
    | false =>
      rw [hm] at hl
      exact ⟨r', by simp only [findSub, hr', hmm, hm]; rfl, by rw [← hl]; exact ha⟩
    | true =>
      rw [hm] at hl
      refine ⟨.elem q' a' t' k' :: r', by simp only [findSub, hr', hmm, hm]; rfl, ?_⟩
      rw [← hl]
      refine .cons ⟨hat.1, ?_⟩ ha
      rw [isCls_iff.1 (overlooked_types v c f hf _ hc (by rw [← matchesTag_loc]; exact hm))]
      exact .elem hat hk

theorem alikeXsd_isSim (v : Version) : IsSim (specTable v) AlikeXsd where
  attrs := by
    rintro c x y ⟨hat, _⟩ f hf
    exact hat.2 _ (overlooked_attrs v _ f hf)
  subs := by
    rintro c x y ⟨hat, hk⟩ _ f hf l hl
    exact sameParts_find v hk f hf l hl
  groups := by
    rintro c x y ⟨_, _⟩ f hf
    rename_i c _ _ _ _ _ _ _ _ _ _
    rw [List.isEmpty_iff.1 (overlooked_shape v c).1] at hf
    cases hf
  choice := by
    rintro c x y ⟨_, _⟩ hc
    rename_i c _ _ _ _ _ _ _ _ _ _
    rw [(overlooked_shape v c).2] at hc
    cases hc

theorem sameParts_symm {c : Construct} {k k' : List Xml} (h : SameParts c k k') : SameParts c k' k := by
  induction h with
  | nil => exact .nil
  | left hu _ ih => exact .right hu ih
  | right hu _ ih => exact .left hu ih
  | both hc hq hat _ _ ih1 ih2 =>
    exact .both (hq ▸ hc) hq.symm ⟨hat.1.symm, fun n hn => (hat.2 n hn).symm⟩ ih1 ih2

theorem sameXsd_symm {x y : Xml} (h : SameXsd x y) : SameXsd y x := by
  obtain ⟨q, a, t, k, q', a', t', k', rfl, rfl, hat, hk⟩ := h
  exact ⟨_, _, _, _, _, _, _, _, rfl, rfl, ⟨hat.1.symm, fun n hn => (hat.2 n hn).symm⟩, sameParts_symm hk⟩

theorem sameXsd_read (v : Version) (N n : Nat) (x y : Xml) (h : SameXsd x y) (w : Val)
    (hw : parseCls (specTable v) N n xSchema x = .ok w) :
    ∃ w', parseCls (specTable v) N n xSchema y = .ok w' ∧ readSchema w = readSchema w' := by
  obtain ⟨q, a, t, k, q', a', t', k', rfl, rfl, hat, hk⟩ := h
  obtain ⟨w', h1, h2⟩ := parse_sim (alikeXsd_isSim v) N n xSchema _ _ w (.elem (c := .schema) hat hk) hw
  have : w.SameFields w' := h2
  exact ⟨w', h1, readSchema_same this.same⟩

/-- **C134.** XSD documents that differ only by what is not looked at are either both read or both not, and have the same
description. -/
theorem C134_same (v : Version) (N n : Nat) (x y : Xml) (h : SameXsd x y) :
    (∀ w, parseCls (specTable v) N n xSchema x = .ok w →
      ∃ w', parseCls (specTable v) N n xSchema y = .ok w' ∧ readSchema w = readSchema w') ∧
    ∀ w', parseCls (specTable v) N n xSchema y = .ok w' →
      ∃ w, parseCls (specTable v) N n xSchema x = .ok w ∧ readSchema w = readSchema w' := by
  refine ⟨sameXsd_read v N n x y h, fun w' h' => ?_⟩
  obtain ⟨w, h1, h2⟩ := sameXsd_read v N n y x (sameXsd_symm h) w' h'
  exact ⟨w, h1, h2.symm⟩

/-- **C134.** Hence they give the same code. -/
theorem C134_code (v : Version) (N n : Nat) (x y : Xml) (h : SameXsd x y) (w : Val)
    (hw : parseCls (specTable v) N n xSchema x = .ok w) (prefixes : List (Option Str)) (digest : Str → Str)
    (limit : Nat) (parent : Option Str) :
    ∃ w', parseCls (specTable v) N n xSchema y = .ok w' ∧
      schemaToPy prefixes digest limit parent (readSchema w) = schemaToPy prefixes digest limit parent (readSchema w') := by
  obtain ⟨w', h1, h2⟩ := (C134_same v N n x y h).1 w hw
  exact ⟨w', h1, by rw [h2]⟩

section
variable {prefixes : List (Option Str)} {digest : Str → Str} {n limit : Nat} {parent : Option Str} {d : DSchema}
  {m : PyModule} {vars : SchemaVars} {env : PyEnv} {s : GSchema}

theorem schemaToPy_simpleName (h : schemaToPy prefixes digest n parent d = .ok m) {st : DSimple} (hst : st ∈ d.simpleTypes) :
    ∃ N, capitalizeO st.name = .ok N ∧ N ∈ m.schema.simpleTypes := by
  unfold schemaToPy at h
  obtain ⟨cts, h1, h⟩ := bind_eq_ok.1 h
  obtain ⟨x, hx, h⟩ := bind_eq_ok.1 h
  unfold schemaCode at hx
  obtain ⟨r, h2, hx⟩ := bind_eq_ok.1 hx
  obtain ⟨ag, h3, hx⟩ := bind_eq_ok.1 hx
  obtain ⟨gs, h4, hx⟩ := bind_eq_ok.1 hx
  obtain ⟨cs, h5, hx⟩ := bind_eq_ok.1 hx
  obtain ⟨ts, h6, hx⟩ := bind_eq_ok.1 hx
  obtain ⟨y, hy, hx⟩ := bind_eq_ok.1 hx
  unfold schemaStatement at hy
  obtain ⟨_, _, hy⟩ := bind_eq_ok.1 hy
  obtain ⟨_, _, hy⟩ := bind_eq_ok.1 hy
  obtain ⟨_, _, hy⟩ := bind_eq_ok.1 hy
  obtain ⟨names, hn, hy⟩ := bind_eq_ok.1 hy
  obtain ⟨_, _, hy⟩ := bind_eq_ok.1 hy
  obtain ⟨_, _, hy⟩ := bind_eq_ok.1 hy
  obtain ⟨_, _, hy⟩ := bind_eq_ok.1 hy
  obtain ⟨_, _, hy⟩ := bind_eq_ok.1 hy
  obtain ⟨N, hN, hc⟩ := (mapE_all2 hn).mem_left hst
  refine ⟨N, hc, ?_⟩
  rw [← Except.ok.inj h, ← Except.ok.inj hx, ← Except.ok.inj hy]
  exact hN

/-- **C134 (unions).** Code can be imported only if the name of each simple type belongs to a definition that gets a class.
A simple type without a restriction and a list - a union - gets none. -/
theorem C134_union (hm : schemaToPy prefixes digest n parent d = .ok m) (he : execModule vars [] limit m = .ok (env, s))
    {st : DSimple} (hst : st ∈ d.simpleTypes) {N : Str} (hn : st.name = some N) : GivesClass d (capName N) := by
  obtain ⟨N', h1, h2⟩ := schemaToPy_simpleName hm hst
  rw [hn] at h1
  have hc := capitalizeO_some h1
  have himp := execModule_imported he
  unfold execModule at he
  obtain ⟨_, _, he⟩ := import_bind_ok.1 he
  obtain ⟨env', hcl, he⟩ := import_bind_ok.1 he
  obtain ⟨s', hs, he⟩ := import_bind_ok.1 he
  unfold execSchema at hs
  obtain ⟨_, _, hs⟩ := import_bind_ok.1 hs
  obtain ⟨_, _, hs⟩ := import_bind_ok.1 hs
  obtain ⟨_, _, hs⟩ := import_bind_ok.1 hs
  obtain ⟨_, _, hs⟩ := import_bind_ok.1 hs
  obtain ⟨_, hl, hs⟩ := import_bind_ok.1 hs
  obtain ⟨o, ho⟩ := mapI_each hl N' h2
  unfold lookupName at ho
  cases hg : env'.get N' with
  | none => rw [hg] at ho; cases ho
  | some o' =>
    rcases execClasses_bound hcl _ _ hg with hb | hb
    · obtain ⟨c, hcm, hcn⟩ := List.mem_map.1 hb
      have := class_given hm hcm
      rw [hcn, hc] at this
      exact this
    · cases hb

/-- **C134 (contents that are not looked at).** A complex type of which nothing is looked at but its name - one with simple
content, say - gets a class without fields.  Every node is read by the class as an instance without fields, whatever its
text, attributes and children, and an instance is written as an empty element. -/
theorem C134_empty (hm : schemaToPy prefixes digest n parent d = .ok m) (he : execModule vars [] limit m = .ok (env, s))
    (hd : (m.classes.map (·.name)).Nodup) {compile : Str → Pattern} {iso : Iso} {T : Table}
    (hT : moduleTable compile iso env s = some T)
    {ct : DComplex} (hct : ct ∈ d.complexTypes) {N : Str} (hn : ct.name = some N) (hc : ct.complexContent = none)
    (he1 : ct.content.elements = []) (ha : ct.content.attributes = []) (hg : ct.content.attributeGroups = []) :
    let c := env.idOf (capName N)
    (T c).fields = [] ∧
    (∀ K k x, parseCls T (K + 1) (k + 1) c x = .ok (.inst c [] (some x))) ∧
    ∀ k vals x tag ns q e, toXml T k (.inst c vals x) tag ns q = .ok e → ∃ p, e = .elem p [] none [] := by
  intro c
  have hf : (T c).fields = [] := by
    have hp : ∀ c ∈ [ct.content], PlainContent c := by
      intro c hcm
      rw [List.mem_singleton] at hcm
      subst hcm
      exact ⟨hg, by rw [ha]; simp, by rw [he1]; simp⟩
    have hnames : layerNames [ct.content] = [] := by
      simp [layerNames, DContent.fieldNames, ha, he1]
    obtain ⟨parts, h1, h2⟩ := C86_fields hm he hd hT hct hn (.own hc) hp (by rw [hnames]; simp) (by rw [hnames]; simp)
    cases h2 with
    | cons h3 h4 =>
      cases h4
      obtain ⟨as, es, rfl, h5, h6⟩ := h3
      rw [ha] at h5
      rw [he1] at h6
      cases h5
      cases h6
      exact h1
  refine ⟨hf, fun K k x => ?_, ?_⟩
  · simp only [parseCls, newInst, Cls.attrs, Cls.elems, Cls.groups, hf]
    cases (T c).choice <;> rfl
  · intro k vals x tag ns q e h
    unfold toXml at h
    obtain ⟨o, ho, h⟩ := bind_eq_ok.1 h
    cases k with
    | zero => cases ho
    | succ k =>
      simp only [renderCls] at ho
      split at ho
      · cases ho
      · rw [hf] at ho
        have := Except.ok.inj ho
        subst this
        exact ⟨_, (Except.ok.inj h).symm⟩

end

namespace ExOverlooked

def xs (n : Str) (a : List (Str × Str)) (k : List Xml) : Xml :=
  .elem ⟨some py"http://www.w3.org/2001/XMLSchema", n⟩ (a.map fun p => (⟨none, p.1⟩, p.2)) none k

/-- A price is a decimal number with an attribute, the currency. -/
def priceDoc : Xml :=
  xs py"schema" [(py"targetNamespace", py"urn:p")]
    [xs py"complexType" [(py"name", py"price"), (py"mixed", py"true")]
      [xs py"simpleContent" []
        [xs py"extension" [(py"base", py"xs:decimal")]
          [xs py"attribute" [(py"name", py"currency"), (py"type", py"xs:string")] []]]]]

/-- A price is nothing. -/
def nothingDoc : Xml := xs py"schema" [(py"targetNamespace", py"urn:p")] [xs py"complexType" [(py"name", py"price")] []]

theorem price_nothing : SameXsd priceDoc nothingDoc := by
  refine ⟨_, _, _, _, _, _, _, _, rfl, rfl, ⟨rfl, fun _ _ => rfl⟩,
    .both (c' := .complexType) (by decide) rfl ⟨rfl, ?_⟩ (.left (.inr ⟨_, _, _, _, rfl, by decide, by decide⟩) .nil) .nil⟩
  intro n hn
  rw [show Construct.complexType.attributes = [py"name"] from rfl, List.mem_singleton] at hn
  subst hn
  rfl

/-- The code for both documents is the same. -/
example (w : Val) (hw : parseCls (specTable .soap11) 20 20 xSchema priceDoc = .ok w) :
    ∃ w', parseCls (specTable .soap11) 20 20 xSchema nothingDoc = .ok w' ∧
      schemaToPy [some py"xs"] (fun _ => py"01234") 5 none (readSchema w) =
        schemaToPy [some py"xs"] (fun _ => py"01234") 5 none (readSchema w') :=
  C134_code _ _ _ _ _ price_nothing w hw _ _ _ _

def nothing : DSchema := { targetNamespace := some py"urn:p", complexTypes := [{ name := some py"price" }] }

/-- It has a class without fields. -/
example : ∃ m env s, schemaToPy [some py"xs"] (fun _ => py"01234") 5 none nothing = .ok m ∧
    execModule [] [] 10 m = .ok (env, s) ∧ (m.classes.map (·.name)).Nodup ∧ m.classes.length = 1 :=
  ⟨_, _, _, rfl, rfl, by decide +kernel, rfl⟩

/-- The price in `<price currency="EUR">9.99</price>` is lost. -/
example (m : PyModule) (env : PyEnv) (s : GSchema) (hm : schemaToPy [some py"xs"] (fun _ => py"01234") 5 none nothing = .ok m)
    (he : execModule [] [] 10 m = .ok (env, s)) (hd : (m.classes.map (·.name)).Nodup) (compile : Str → Pattern) (iso : Iso)
    (T : Table) (hT : moduleTable compile iso env s = some T) :
    ∃ x, parseCls T 10 10 (env.idOf py"Price") (.elem ⟨none, py"price"⟩ [(⟨none, py"currency"⟩, py"EUR")] (some py"9.99") []) =
      .ok (.inst (env.idOf py"Price") [] x) :=
  ⟨_, (C134_empty hm he hd hT (ct := { name := some py"price" }) (by simp [nothing]) rfl rfl rfl rfl rfl).2.1 9 9 _⟩

/-- An alternative inside a sequence is not looked at, neither is anything that an extension adds by a choice. -/
example : SameXsd
    (xs py"schema" [] [xs py"complexType" [(py"name", py"a")] [xs py"sequence" []
      [xs py"element" [(py"name", py"e"), (py"default", py"7")] [], xs py"choice" [] [xs py"element" [(py"name", py"f")] []], xs py"any" [] []]]])
    (xs py"schema" [] [xs py"complexType" [(py"name", py"a")] [xs py"sequence" [] [xs py"element" [(py"name", py"e")] []]]]) := by
  have over : ∀ {c : Construct} {n a k}, n ∈ xsdVocabulary → n ∉ c.children.map (·.1) → Overlooked c (xs n a k) :=
    fun h1 h2 => .inr ⟨_, _, _, _, rfl, h1, h2⟩
  refine ⟨_, _, _, _, _, _, _, _, rfl, rfl, ⟨rfl, fun _ _ => rfl⟩,
    .both (c' := .complexType) (by decide) rfl ⟨rfl, fun _ _ => rfl⟩
      (.both (c' := .particles) (by decide) rfl ⟨rfl, fun _ _ => rfl⟩
        (.both (c' := .element) (by decide) rfl ⟨rfl, ?_⟩ .nil
          (.left (over (by decide) (by decide)) (.left (over (by decide) (by decide)) .nil))) .nil) .nil⟩
  decide

/-- A size is a number or a word: there is code for the document, but it cannot be imported. -/
def sizeDoc : DSchema := { targetNamespace := some py"urn:p", simpleTypes := [{ name := some py"size" }] }

example : ∃ m, schemaToPy [some py"xs"] (fun _ => py"01234") 5 none sizeDoc = .ok m ∧
    execModule [] [] 10 m = .error (.raised .nameError) := ⟨_, rfl, rfl⟩

example (m : PyModule) (hm : schemaToPy [some py"xs"] (fun _ => py"01234") 5 none sizeDoc = .ok m) (vars : SchemaVars)
    (limit : Nat) (env : PyEnv) (s : GSchema) : execModule vars [] limit m ≠ .ok (env, s) := fun he => by
  cases C134_union hm he (st := { name := some py"size" }) (by simp [sizeDoc]) rfl with
  | simple h h' => simp [sizeDoc] at h; subst h; simp at h'
  | attributeGroup h => simp [sizeDoc] at h
  | group h => simp [sizeDoc] at h
  | complex h => simp [sizeDoc] at h
  | element h => simp [sizeDoc] at h

end ExOverlooked

end Soapfish
