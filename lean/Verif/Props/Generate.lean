import Verif.GenerateRender
import Verif.Props.Render
/-
Properties of generated XSD documents: C62 – C65, C79.
-/
namespace Soapfish

/-! ### The whole document -/

theorem generate_error {α : Type} {E : Exn → Prop} {x : Except Exn α} {P : Prop} {a b : α} (h : Gives E x P a) :
    x = .ok b ↔ P ∧ b = a := by
  by_cases hp : P
  · rw [h.1 hp]
    constructor
    · intro h; injection h with h; exact ⟨hp, h.symm⟩
    · rintro ⟨_, rfl⟩; rfl
  · obtain ⟨e, _, hx⟩ := h.2 hp
    rw [hx]
    exact ⟨nofun, fun h => absurd h.1 hp⟩

/-- **C79 (the document).** A schema gives exactly the document of the specification: imports, includes, simple types,
complex types and elements, in this order and in the order of the schema, or an exception. -/
theorem C79_document (v : Version) (D : Nat) (s : GSchema) (x : Xml) :
    generateSchema v (D + 12) s = .ok x ↔ (Buildable s ∧ Writable s) ∧ x = document s := by
  have key : Gives (fun _ => True) (generateSchema v (D + 12) s) (Buildable s ∧ Writable s) (document s) := by
    unfold generateSchema
    refine ((build_schema v D s).mono fun _ _ => trivial).bind fun hb => ?_
    have := ((render_schema v (D + 4) s hb).andOk fun o => mkElem (QName.mk' (some nsXsd) py"schema") o none).mono
      (E' := fun _ => True) fun _ _ => trivial
    exact this
  exact generate_error key

/-- **C79 (exceptions).** If the description can be built, the only exception is ValueError; building fails with
ValueError, IndexError or AttributeError. -/
theorem C79_exceptions (v : Version) (D : Nat) (s : GSchema) :
    (Buildable s → ¬ Writable s → generateSchema v (D + 12) s = .error .valueError) ∧
    (¬ Buildable s → ∃ e, (e = .valueError ∨ e = .indexError ∨ e = .attributeError) ∧
      generateSchema v (D + 12) s = .error e) := by
  constructor
  · intro hb hw
    unfold generateSchema
    rw [(build_schema v D s).1 hb]
    obtain ⟨e, rfl, h⟩ := (render_schema v (D + 4) s hb).2 hw
    show (renderCls (specTable v) (D + 4 + 8) xSchema (describe s) (some nsXsd) true >>= _) = _
    rw [h]; rfl
  · intro hb
    obtain ⟨e, he, h⟩ := (build_schema v D s).2 hb
    refine ⟨e, he, ?_⟩
    unfold generateSchema
    rw [h]; rfl

/-! ### C65 -/

/-- The schema has a complex type with an attribute. -/
def UsesAttributes (s : GSchema) : Prop :=
  (∃ c ∈ s.complexTypes, c.attributes ≠ []) ∨ (∃ e ∈ s.elements, ∃ c, e.type = .inst (some c) ∧ c.attributes ≠ [])

theorem UsesAttributes.not_writable {s : GSchema} (h : UsesAttributes s) : ¬ Writable s := by
  intro hw
  rcases h with ⟨c, hc, ha⟩ | ⟨e, he, c, ht, ha⟩
  · exact ha (hw.2.2.2.2.1 c hc).1
  · have := (hw.2.2.2.2.2 e he).2.2
    rw [ht] at this
    exact ha this.1

/-- **C65.** No schema with an attribute can be generated; if nothing else is wrong the exception is ValueError. -/
theorem C65_attributes (v : Version) (D : Nat) (s : GSchema) (h : UsesAttributes s) :
    (∀ x, generateSchema v (D + 12) s ≠ .ok x) ∧
    (Buildable s → generateSchema v (D + 12) s = .error .valueError) := by
  constructor
  · intro x hx
    exact h.not_writable ((C79_document v D s x).1 hx).1.2
  · intro hb
    exact (C79_exceptions v D s).1 hb h.not_writable

/-! ### C63 -/

/-- **C63 (built-in types).** A built-in type is referred to by its XSD name with prefix 'xsd', except exactly for the
four restricted integer types, NMTOKEN and NMTOKENS, which get the prefix 'sns', and for MaxOccurs and List, whose names
are not XSD names. -/
theorem C63_builtin (b : Builtin) :
    ((∃ n ∈ xsdNames, xsdType (.builtin b) = .ok (py"xsd:" ++ n)) ↔
      b ∉ [.int .nonNegativeInteger, .int .nonPositiveInteger, .int .negativeInteger, .int .positiveInteger,
        .nmtoken, .nmtokens, .maxOccurs, .list]) ∧
    ((∃ n, xsdType (.builtin b) = .ok (py"sns:" ++ n)) ↔
      b ∈ [.int .nonNegativeInteger, .int .nonPositiveInteger, .int .negativeInteger, .int .positiveInteger,
        .nmtoken, .nmtokens]) := by
  have h : xsdType (.builtin b) = .ok (builtinRef b) := (xsdType_gives (.builtin b)).1 trivial
  have key : ((∃ n ∈ xsdNames, builtinRef b = (py"xsd:" ++ n)) ↔
      b ∉ [.int .nonNegativeInteger, .int .nonPositiveInteger, .int .negativeInteger, .int .positiveInteger,
        .nmtoken, .nmtokens, .maxOccurs, .list]) ∧
      (builtinRef b).take 4 = (if b ∈ [.int .nonNegativeInteger, .int .nonPositiveInteger, .int .negativeInteger,
        .int .positiveInteger, .nmtoken, .nmtokens] then py"sns:" else py"xsd:") := by
    cases b with
    | int k => cases k <;> decide +kernel
    | _ => decide +kernel
  refine ⟨?_, ?_⟩
  · rw [← key.1]
    constructor
    · rintro ⟨n, hn, he⟩; rw [h] at he; injection he with he; exact ⟨n, hn, he⟩
    · rintro ⟨n, hn, he⟩; exact ⟨n, hn, by rw [h, he]⟩
  · constructor
    · rintro ⟨n, he⟩
      rw [h] at he; injection he with he
      have := key.2
      rw [he] at this
      split at this
      · assumption
      · exact absurd this (by simp)
    · intro hb
      have := key.2
      rw [if_pos hb] at this
      refine ⟨(builtinRef b).drop 4, ?_⟩
      rw [h]
      conv => lhs; rw [← List.take_append_drop 4 (builtinRef b), this]

/-- **C63 (user types).** A complex type and a class deriving from another type class get the prefix 'sns'; a class
deriving directly from SimpleType gets the prefix 'xsd'. -/
theorem C63_user (n : Str) (hn : n ≠ []) (base : TypeCls) :
    xsdType (.complex n) = .ok (py"sns:" ++ refName n) ∧
    (base ≠ .simpleType → xsdType (.derived n base) = .ok (py"sns:" ++ refName n)) ∧
    xsdType (.derived n .simpleType) = .ok (py"xsd:" ++ refName n) := by
  refine ⟨(xsdType_gives (.complex n)).1 hn, fun hb => ?_, (xsdType_gives (.derived n .simpleType)).1 hn⟩
  rw [(xsdType_gives (.derived n base)).1 hn]
  cases base <;> first | rfl | exact absurd rfl hb

example : xsdType (.builtin .dateTime) = .ok py"xsd:dateTime" := by decide
example : xsdType (.builtin (.int .positiveInteger)) = .ok py"sns:positiveInteger" := by decide
example : xsdType (.derived py"Code" (.builtin .string)) = .ok py"sns:code" := by decide
example : xsdType (.derived py"Code" .simpleType) = .ok py"xsd:code" := by decide

/-! ### C64 -/

theorem mem_shownFacets {t : TypeObj} {name value : Str} :
    (name, value) ∈ shownFacets t ↔ ∃ a, HasFacet t name a ∧ ¬ Blank a ∧ a.toStr = value := by
  have key : ∀ n (o : Option Atom), (name, value) ∈ shownFacet n o ↔
      ∃ a, o = some a ∧ name = n ∧ ¬ Blank a ∧ a.toStr = value := by
    intro n o
    cases o with
    | none => simp [shownFacet]
    | some a =>
      simp only [shownFacet]
      by_cases hb : Blank a
      · rw [if_pos hb]; simp [hb]
      · rw [if_neg hb]
        simp [hb]
        exact fun _ => eq_comm
  simp only [shownFacets, List.mem_append, key]
  constructor
  · rintro ((((((⟨a, h, rfl, hb, hv⟩ | ⟨a, h, rfl, hb, hv⟩) | ⟨a, h, rfl, hb, hv⟩) | ⟨a, h, rfl, hb, hv⟩) |
      ⟨a, h, rfl, hb, hv⟩) | ⟨a, h, rfl, hb, hv⟩) | ⟨a, h, rfl, hb, hv⟩)
    · cases hp : t.pattern with
      | none => rw [hp] at h; cases h
      | some p =>
        rw [hp] at h; injection h with h; subst h
        exact ⟨_, .pattern hp, hb, hv⟩
    · exact ⟨a, .minInclusive h, hb, hv⟩
    · exact ⟨a, .minExclusive h, hb, hv⟩
    · exact ⟨a, .maxExclusive h, hb, hv⟩
    · exact ⟨a, .maxInclusive h, hb, hv⟩
    · exact ⟨a, .fractionDigits h, hb, hv⟩
    · exact ⟨a, .totalDigits h, hb, hv⟩
  · rintro ⟨a, hf, hb, hv⟩
    cases hf with
    | pattern h => exact .inl (.inl (.inl (.inl (.inl (.inl ⟨_, by rw [h]; rfl, rfl, hb, hv⟩)))))
    | minInclusive h => exact .inl (.inl (.inl (.inl (.inl (.inr ⟨_, h, rfl, hb, hv⟩)))))
    | minExclusive h => exact .inl (.inl (.inl (.inl (.inr ⟨_, h, rfl, hb, hv⟩))))
    | maxExclusive h => exact .inl (.inl (.inl (.inr ⟨_, h, rfl, hb, hv⟩)))
    | maxInclusive h => exact .inl (.inl (.inr ⟨_, h, rfl, hb, hv⟩))
    | fractionDigits h => exact .inl (.inr ⟨_, h, rfl, hb, hv⟩)
    | totalDigits h => exact .inr ⟨_, h, rfl, hb, hv⟩

theorem facetNode_inj {n n' w w' : Str} : facetNode n w = facetNode n' w' ↔ n = n' ∧ w = w' := by
  simp [facetNode, xsdNode]

/-- **C64 (restrictions in place).** In a generated document the field declared with a type object has a restriction
whose children are exactly: one element for every value of an enumeration, if the class of the object derives directly
from SimpleType (else none); and one element with the value of every facet that is not None, zero, False or empty.
Facets of other names, in particular lengths and white space, are never written. -/
theorem C64_in_place (v : Version) (D : Nat) (s : GSchema) (x : Xml) (h : generateSchema v (D + 12) s = .ok x)
    (c : GComplex) (hc : c ∈ s.complexTypes) (e : GElem) (he : e ∈ c.elements) (hp : e.passedClass = false) :
    ∃ ct sq el st r, ct ∈ x.children ∧ ct.plainAttr py"name" = some (refName c.name) ∧ sq ∈ ct.children ∧
      el ∈ sq.children ∧ el.plainAttr py"name" = some e.written ∧ el.plainAttr py"type" = none ∧
      el.children = [st] ∧ st.children = [r] ∧ r.plainAttr py"base" = some (typeRef e.type.cls) ∧
      (∀ k ∈ r.children, ∃ name value, k = facetNode name value) ∧
      (∀ name value, name ≠ py"enumeration" →
        (facetNode name value ∈ r.children ↔ ∃ a, HasFacet e.type name a ∧ ¬ Blank a ∧ a.toStr = value)) ∧
      (∀ value, facetNode py"enumeration" value ∈ r.children ↔
        e.type.cls.FirstBaseSimple ∧ ∃ vs, e.type.enumeration = some vs ∧ .str value ∈ vs) := by
  obtain ⟨⟨hb, hw⟩, rfl⟩ := (C79_document v D s x).1 h
  have hcb := hb.2.1 c hc
  obtain ⟨i, hi⟩ : ∃ i, c.indicator = some i := by
    cases hci : c.indicator with
    | none => rw [hcb.2.2.2 hci] at he; cases he
    | some i => exact ⟨i, rfl⟩
  refine ⟨complexDoc c true, xsdNode i.tagName [] (c.elements.map elementDoc), elementDoc e, inPlaceDoc e.type,
    restrictionDoc (typeRef e.type.cls) (shownEnums e.type) (shownFacets e.type), ?_, rfl, ?_, ?_, rfl, ?_, ?_, rfl,
    rfl, ?_, ?_, ?_⟩
  · show _ ∈ _ ++ _ ++ _ ++ _ ++ _
    simp only [List.mem_append, List.mem_map]
    exact .inl (.inr ⟨c, hc, rfl⟩)
  · show _ ∈ List.map _ _
    rw [hi]; simp
  · exact List.mem_map.2 ⟨e, he, rfl⟩
  · simp only [elementDoc, hp, xsdNode, Xml.plainAttr]
    cases e.minOccurs <;> cases e.maxOccurs.join <;> rfl
  · simp only [elementDoc, hp, xsdNode, Xml.children]; rfl
  · intro k hk
    rcases List.mem_append.1 hk with hk | hk
    · obtain ⟨a, _, rfl⟩ := List.mem_map.1 hk; exact ⟨_, _, rfl⟩
    · obtain ⟨a, _, rfl⟩ := List.mem_map.1 hk; exact ⟨_, _, rfl⟩
  · intro name value hne
    rw [← mem_shownFacets]
    constructor
    · intro hk
      rcases List.mem_append.1 hk with hk | hk
      · obtain ⟨a, _, h⟩ := List.mem_map.1 hk
        exact absurd (facetNode_inj.1 h).1.symm hne
      · obtain ⟨⟨n, w⟩, hm, h⟩ := List.mem_map.1 hk
        obtain ⟨rfl, rfl⟩ := facetNode_inj.1 h
        exact hm
    · intro hm
      exact List.mem_append.2 (.inr (List.mem_map.2 ⟨_, hm, rfl⟩))
  · intro value
    have hen := ((hw.2.2.2.2.1 c hc).2.2 e he).2.2 hp
    constructor
    · intro hk
      rcases List.mem_append.1 hk with hk | hk
      · obtain ⟨a, ha, h⟩ := List.mem_map.1 hk
        obtain ⟨t, rfl, _⟩ := hen.1 a ha
        have : t = value := (facetNode_inj.1 h).2
        subst this
        unfold shownEnums at ha
        by_cases hf : e.type.cls.FirstBaseSimple
        · rw [if_pos hf] at ha
          cases hv : e.type.enumeration with
          | none => rw [hv] at ha; cases ha
          | some vs => rw [hv] at ha; exact ⟨hf, vs, rfl, ha⟩
        · rw [if_neg hf] at ha; cases ha
      · obtain ⟨⟨n, w⟩, hm, h⟩ := List.mem_map.1 hk
        obtain ⟨rfl, rfl⟩ := facetNode_inj.1 h
        obtain ⟨a, hf, _⟩ := mem_shownFacets.1 hm
        cases hf
    · rintro ⟨hf, vs, hv, hm⟩
      refine List.mem_append.2 (.inl (List.mem_map.2 ⟨.str value, ?_, rfl⟩))
      unfold shownEnums
      rw [if_pos hf, hv]
      exact hm

/-! ### C62 -/

theorem plainAttr_of_mem {name : Str} {attrs : List (Str × Str)} {kids : List Xml} (a : Str) :
    (xsdNode name attrs kids).plainAttr a = (attrs.find? fun p => p.1 = a).map (·.2) := by
  simp only [xsdNode, Xml.plainAttr]
  induction attrs with
  | nil => rfl
  | cons p ps ih =>
    simp only [List.map_cons, List.find?_cons]
    by_cases h : p.1 = a
    · simp [h]
    · have : ¬ ((⟨none, p.1⟩ : QName) = ⟨none, a⟩) := fun h' => h (by injection h')
      simp [h]
      simpa using ih

theorem elementDoc_name (e : GElem) : (elementDoc e).plainAttr py"name" = some e.written := rfl

theorem elementDoc_min (e : GElem) : (elementDoc e).plainAttr py"minOccurs" = e.minOccurs.map intStr := by
  rw [elementDoc, plainAttr_of_mem]
  cases e.passedClass <;> cases e.minOccurs <;> cases e.maxOccurs.join <;> rfl

theorem elementDoc_max (e : GElem) : (elementDoc e).plainAttr py"maxOccurs" = e.maxOccurs.join.map boundText := by
  rw [elementDoc, plainAttr_of_mem]
  cases e.passedClass <;> cases e.minOccurs <;> cases e.maxOccurs.join <;> rfl

theorem ViewOf.written {f : Field} {e : GElem} (h : ViewOf f e) : e.written = f.writtenName := by
  unfold GElem.written Field.writtenName
  rw [h.name, h.tagname]

theorem child_localName {T : Table} {n : Nat} {f : Field} {ns : Option Str} {q : Bool} {v : Val} {k : Xml}
    (h : Child T n f ns q v k) : k.localName = some f.writtenName := by
  have hn : (childName f ns q).loc = f.writtenName := by
    unfold childName
    split <;> rfl
  cases h <;> exact congrArg some hn

/-- The children one field adds follow its declaration. -/
theorem contributes_allowed {T : Table} {n : Nat} {f : Field} {ns : Option Str} {q : Bool} {v : Val} {ks : List Xml}
    {e : GElem} (hv : ViewOf f e) (hk : f.kind = .element ∨ f.kind = .list)
    (hset : f.kind = .element → f.required = true → v ≠ Val.none)
    (hbounds : f.kind = .list → f.minOccurs ≠ none ∧ f.maxOccurs ≠ none ∧ f.maxOccurs ≠ some (.int 0))
    (h : Contributes T n f ns q v ks) :
    (∀ k ∈ ks, k.localName = (elementDoc e).plainAttr py"name") ∧ AllowsCount (elementDoc e) ks.length := by
  rw [elementDoc_name, hv.written]
  unfold AllowsCount
  rw [elementDoc_min, elementDoc_max]
  rcases hk with hk | hk
  · obtain ⟨hmin, hmax⟩ := hv.single hk
    rw [hmin, hmax]
    cases h with
    | absent h =>
      refine ⟨by simp, ⟨0, .inl ?_, by simp⟩, .inr ⟨1, .inr ⟨rfl, rfl⟩, by simp⟩⟩
      have hr : f.required = false := Bool.eq_false_iff.2 fun hr => hset hk hr rfl
      rw [hr]; rfl
    | single h hn hc =>
      refine ⟨by simpa using child_localName hc, ⟨if f.required then 1 else 0, .inl rfl, ?_⟩,
        .inr ⟨1, .inr ⟨rfl, rfl⟩, by simp⟩⟩
      cases f.required <;> simp
    | «attribute» h => rw [hk] at h; cases h
    | list h => rw [hk] at h; cases h
    | noName h => rw [hk] at h; cases h
    | noValue h => rw [hk] at h; cases h
    | named h => rw [hk] at h; cases h
    | noNameText h => rw [hk] at h; cases h
    | group h => rw [hk] at h; rcases h with h | h <;> cases h
    | groupAsText h => rw [hk] at h; rcases h with h | h <;> cases h
    | other h => rw [hk] at h; rcases h with h | h <;> cases h
  · obtain ⟨hmin, hmax⟩ := hv.list hk
    obtain ⟨h1, h2, h3⟩ := hbounds hk
    rw [hmin, hmax]
    cases h with
    | list h hi ha hlo hhi =>
      have hl := ha.length
      refine ⟨?_, ?_, ?_⟩
      · intro k hkm
        obtain ⟨a, _, hc⟩ := ha.mem_right hkm
        exact child_localName hc
      · cases hm : f.minOccurs with
        | none => exact absurd hm h1
        | some m =>
          refine ⟨m, .inl rfl, ?_⟩
          by_cases h0 : m = 0
          · subst h0; simp
          · rw [← hl]; exact hlo m hm h0
      · cases hm : f.maxOccurs with
        | none => exact absurd hm h2
        | some b =>
          cases b with
          | unbounded => exact .inl rfl
          | int m =>
            refine .inr ⟨m, .inl rfl, ?_⟩
            rw [← hl]
            exact hhi m hm fun h0 => h3 (by rw [hm, h0])
    | «attribute» h => rw [hk] at h; cases h
    | absent h => rw [hk] at h; cases h
    | single h => rw [hk] at h; cases h
    | noName h => rw [hk] at h; cases h
    | noValue h => rw [hk] at h; cases h
    | named h => rw [hk] at h; cases h
    | noNameText h => rw [hk] at h; cases h
    | group h => rw [hk] at h; rcases h with h | h <;> cases h
    | groupAsText h => rw [hk] at h; rcases h with h | h <;> cases h
    | other h => rw [hk] at h; rcases h with h | h <;> cases h

/-- **C62.** The children of a rendered instance follow the sequence generated for its class, if every single field with
minOccurs=1 is set and every list field has explicit bounds (and no maxOccurs=0). -/
theorem C62_follows (T : Table) (n : Nat) (c c' : ClsId) (vals : List (Str × Val)) (x : Option Xml) (ns : Option Str)
    (q : Bool) (hh : (T c).header = false) (o : Out) (h : renderCls T (n + 1) c (.inst c' vals x) ns q = .ok o)
    (es : List GElem) (hes : All2 ViewOf ((T c').fields.filter (·.kind ≠ .attribute)) es)
    (hkind : ∀ f ∈ (T c').fields, f.kind = .attribute ∨ f.kind = .element ∨ f.kind = .list)
    (hset : ∀ f ∈ (T c').fields, f.kind = .element → f.required = true → Dict.get? vals f.name ≠ some Val.none)
    (hbounds : ∀ f ∈ (T c').fields, f.kind = .list →
      f.minOccurs ≠ none ∧ f.maxOccurs ≠ none ∧ f.maxOccurs ≠ some (.int 0)) :
    FollowsSequence (es.map elementDoc) o.kids := by
  obtain ⟨parts, hk, hp⟩ := C23_children_in_declaration_order T n c c' vals x ns q hh o h
  rw [hk]
  clear hk h
  generalize (T c').fields = fs at *
  induction hp generalizing es with
  | nil => cases hes; exact .nil
  | @cons f ks fs parts h1 _ ih =>
    obtain ⟨v, hv, hc⟩ := h1
    have hk := hkind f (by simp)
    have ih' := ih (hkind := fun g hg => hkind g (by simp [hg])) (hset := fun g hg => hset g (by simp [hg]))
      (hbounds := fun g hg => hbounds g (by simp [hg]))
    by_cases ha : f.kind = .attribute
    · have hf : (f :: fs).filter (fun g => decide (g.kind ≠ .attribute)) = fs.filter (fun g => decide (g.kind ≠ .attribute)) := by
        rw [List.filter_cons_of_neg (by simp [ha])]
      rw [hf] at hes
      have hks : ks = [] := by
        cases hc with
        | «attribute» _ => rfl
        | absent h => rfl
        | single h => rw [ha] at h; cases h
        | list h => rw [ha] at h; cases h
        | noName h => rfl
        | noValue h => rfl
        | named h => rw [ha] at h; cases h
        | noNameText h => rw [ha] at h; cases h
        | group h => rw [ha] at h; rcases h with h | h <;> cases h
        | groupAsText h => rfl
        | other h => rw [ha] at h; rcases h with h | h <;> cases h
      rw [hks]
      exact ih' es hes
    · have hf : (f :: fs).filter (fun g => decide (g.kind ≠ .attribute)) = f :: fs.filter (fun g => decide (g.kind ≠ .attribute)) := by
        rw [List.filter_cons_of_pos (by simp [ha])]
      rw [hf] at hes
      cases hes with
      | @cons _ e _ es' he hes' =>
        have := contributes_allowed he (hk.resolve_left ha)
          (fun hke hr hn => hset f (by simp) hke hr (by rw [hv, hn])) (hbounds f (by simp)) hc
        exact .cons this.1 this.2 (ih' es' hes')

/-- **C62 (lists without bounds).** A list field without bounds is declared to occur exactly once, so that an empty list
and a list with two or more items never follow the declaration. -/
theorem C62_unbounded_list (f : Field) (e : GElem) (hv : ViewOf f e) (hk : f.kind = .list) (hmin : f.minOccurs = none)
    (hmax : f.maxOccurs = none) (n : Nat) : AllowsCount (elementDoc e) n ↔ n = 1 := by
  unfold AllowsCount
  rw [elementDoc_min, elementDoc_max, (hv.list hk).1, (hv.list hk).2, hmin, hmax]
  simp
  omega

/-- **C62 (in the document).** The generated document has, for a listed class with a sequence, a complex type with a
sequence that the children of rendered instances follow. -/
theorem C62_document (v : Version) (D : Nat) (s : GSchema) (x : Xml) (hx : generateSchema v (D + 12) s = .ok x)
    (g : GComplex) (hg : g ∈ s.complexTypes) (hgi : g.indicator = some .sequence)
    (T : Table) (n : Nat) (c c' : ClsId) (vals : List (Str × Val)) (src : Option Xml) (ns : Option Str) (q : Bool)
    (hh : (T c).header = false) (o : Out) (h : renderCls T (n + 1) c (.inst c' vals src) ns q = .ok o)
    (hes : All2 ViewOf ((T c').fields.filter (·.kind ≠ .attribute)) g.elements)
    (hkind : ∀ f ∈ (T c').fields, f.kind = .attribute ∨ f.kind = .element ∨ f.kind = .list)
    (hset : ∀ f ∈ (T c').fields, f.kind = .element → f.required = true → Dict.get? vals f.name ≠ some Val.none)
    (hbounds : ∀ f ∈ (T c').fields, f.kind = .list →
      f.minOccurs ≠ none ∧ f.maxOccurs ≠ none ∧ f.maxOccurs ≠ some (.int 0)) :
    ∃ ct sq, ct ∈ x.children ∧ ct.IsXsd py"complexType" ∧ ct.plainAttr py"name" = some (refName g.name) ∧
      ct.children = [sq] ∧ sq.IsXsd py"sequence" ∧ FollowsSequence sq.children o.kids := by
  obtain ⟨_, rfl⟩ := (C79_document v D s x).1 hx
  refine ⟨complexDoc g true, xsdNode py"sequence" [] (g.elements.map elementDoc), ?_, ⟨_, _, _, rfl⟩, rfl, ?_,
    ⟨_, _, _, rfl⟩, C62_follows T n c c' vals src ns q hh o h g.elements hes hkind hset hbounds⟩
  · show _ ∈ _ ++ _ ++ _ ++ _ ++ _
    simp only [List.mem_append, List.mem_map]
    exact .inl (.inr ⟨g, hg, rfl⟩)
  · show List.map _ _ = _
    rw [hgi]; rfl

/-! ### C80 -/

theorem Within.cases_head {x k : Xml} (h : Within x k) : k = x ∨ ∃ c ∈ x.children, Within c k := by
  induction h with
  | self => exact .inl rfl
  | @child p k hp hk ih =>
    rcases ih with rfl | ⟨c, hc, hcp⟩
    · exact .inr ⟨k, hk, .self⟩
    · exact .inr ⟨c, hc, hcp.child hk⟩

/-- All type references inside an element satisfy a condition. -/
def RefsOk (P : Str → Prop) (x : Xml) : Prop :=
  ∀ k, Within x k → ∀ r, k.plainAttr py"type" = some r ∨ k.plainAttr py"base" = some r → P r

theorem RefsOk.node {P : Str → Prop} {name : Str} {attrs : List (Str × Str)} {kids : List Xml}
    (ha : ∀ p ∈ attrs, p.1 = py"type" ∨ p.1 = py"base" → P p.2) (hk : ∀ k ∈ kids, RefsOk P k) :
    RefsOk P (xsdNode name attrs kids) := by
  intro k hw r hr
  rcases hw.cases_head with rfl | ⟨c, hc, hck⟩
  · rw [plainAttr_of_mem, plainAttr_of_mem] at hr
    have key : ∀ a, (attrs.find? fun p => p.1 = a).map (·.2) = some r → ∃ p ∈ attrs, p.1 = a ∧ p.2 = r := by
      intro a h
      cases hf : attrs.find? fun p => p.1 = a with
      | none => rw [hf] at h; cases h
      | some p =>
        rw [hf] at h; injection h with h
        exact ⟨p, List.mem_of_find?_eq_some hf, by simpa using List.find?_some hf, h⟩
    rcases hr with hr | hr
    · obtain ⟨p, hp, h1, rfl⟩ := key _ hr; exact ha p hp (.inl h1)
    · obtain ⟨p, hp, h1, rfl⟩ := key _ hr; exact ha p hp (.inr h1)
  · exact hk c hc k hck r hr

theorem refs_facet (P : Str → Prop) (n w : Str) : RefsOk P (facetNode n w) :=
  .node (by rintro p hp h; simp at hp; subst hp; rcases h with h | h <;> cases h) (by simp)

theorem refs_restriction {P : Str → Prop} {base : Str} (h : P base) (as fs) : RefsOk P (restrictionDoc base as fs) := by
  refine .node ?_ ?_
  · rintro p hp _; simp at hp; subst hp; exact h
  · intro k hk
    rcases List.mem_append.1 hk with hk | hk <;> obtain ⟨_, _, rfl⟩ := List.mem_map.1 hk <;> exact refs_facet _ _ _

theorem mem_optAttr {n : Str} {o : Option Str} {p : Str × Str} (h : p ∈ optAttr n o) : p.1 = n := by
  cases o with
  | none => cases h
  | some w => simp [optAttr] at h; rw [h]

theorem refs_element {P : Str → Prop} {e : GElem} (h : P (typeRef e.type.cls)) : RefsOk P (elementDoc e) := by
  refine .node ?_ ?_
  · intro p hp ht
    simp only [List.mem_append] at hp
    rcases hp with (((hp | hp) | hp) | hp) | hp
    · simp at hp; subst hp; rcases ht with ht | ht <;> cases ht
    · split at hp
      · simp at hp; subst hp; exact h
      · cases hp
    · rw [mem_optAttr hp] at ht; rcases ht with ht | ht <;> cases ht
    · rw [mem_optAttr hp] at ht; rcases ht with ht | ht <;> cases ht
    · simp at hp; subst hp; rcases ht with ht | ht <;> cases ht
  · intro k hk
    split at hk
    · cases hk
    · simp at hk; subst hk
      refine .node (by simp) ?_
      intro k hk
      simp at hk; subst hk
      exact refs_restriction h _ _

theorem refs_complex {P : Str → Prop} {c : GComplex} {named : Bool} (h : ∀ e ∈ c.elements, P (typeRef e.type.cls)) :
    RefsOk P (complexDoc c named) := by
  refine .node ?_ ?_
  · intro p hp ht
    split at hp
    · simp at hp; subst hp; rcases ht with ht | ht <;> cases ht
    · cases hp
  · intro k hk
    obtain ⟨i, _, rfl⟩ := List.mem_map.1 hk
    refine .node (by simp) ?_
    intro k hk
    obtain ⟨e, he, rfl⟩ := List.mem_map.1 hk
    exact refs_element (h e he)

/-- A listed type resolves in the document of its schema. -/
theorem resolves_of_listed {s : GSchema} {t : TypeCls} (h : ListedType s t) : Resolves (document s) (typeRef t) := by
  cases h with
  | @builtin b hb =>
    obtain ⟨n, hn, he⟩ := (C63_builtin b).1.2 hb
    rw [(xsdType_gives (.builtin b)).1 trivial] at he
    injection he with he
    exact .inl ⟨n, hn, he⟩
  | @complex c hc =>
    refine .inr ⟨refName c.name, complexDoc c true, rfl, ?_, .inr ⟨_, _, _, rfl⟩, rfl⟩
    show _ ∈ _ ++ _ ++ _ ++ _ ++ _
    simp only [List.mem_append, List.mem_map]
    exact .inl (.inr ⟨c, hc, rfl⟩)
  | @simple st base hs hb =>
    refine .inr ⟨refName st.name, simpleDoc st, ?_, ?_, .inl ⟨_, _, _, rfl⟩, rfl⟩
    · cases base <;> first | rfl | exact absurd rfl hb
    · show _ ∈ _ ++ _ ++ _ ++ _ ++ _
      simp only [List.mem_append, List.mem_map]
      exact .inl (.inl (.inr ⟨st, hs, rfl⟩))

/-- **C80.** If the types used in a schema are listed in it (or are types of XSD with a correct reference), every
reference in the generated document resolves. -/
theorem C80_resolves (v : Version) (D : Nat) (s : GSchema) (x : Xml) (h : generateSchema v (D + 12) s = .ok x)
    (hs : ClosedSchema s) (k : Xml) (hk : Within x k) (r : Str)
    (hr : k.plainAttr py"type" = some r ∨ k.plainAttr py"base" = some r) : Resolves x r := by
  obtain ⟨⟨hb, _⟩, rfl⟩ := (C79_document v D s x).1 h
  refine (RefsOk.node (P := Resolves (document s)) ?_ ?_ : RefsOk (Resolves (document s)) (document s)) k hk r hr
  · intro p hp ht
    simp at hp
    rcases hp with rfl | rfl <;> rcases ht with ht | ht <;> cases ht
  · intro k hk
    simp only [List.mem_append, List.mem_map] at hk
    rcases hk with (((⟨i, _, rfl⟩ | ⟨i, _, rfl⟩) | ⟨st, hst, rfl⟩) | ⟨c, hc, rfl⟩) | ⟨e, he, rfl⟩
    · refine .node ?_ (by simp)
      intro p hp ht
      rcases List.mem_append.1 hp with hp | hp
      · rw [mem_optAttr hp] at ht; rcases ht with ht | ht <;> cases ht
      · simp at hp; subst hp; rcases ht with ht | ht <;> cases ht
    · refine .node ?_ (by simp)
      intro p hp ht
      rw [mem_optAttr hp] at ht; rcases ht with ht | ht <;> cases ht
    · refine .node ?_ ?_
      · rintro p hp ht; simp at hp; subst hp; rcases ht with ht | ht <;> cases ht
      · intro k hk
        simp at hk; subst hk
        exact refs_restriction (resolves_of_listed (hs.2.1 st hst)) _ _
    · exact refs_complex fun e he => resolves_of_listed (hs.1 c hc e he)
    · have ht := hs.2.2 e he
      unfold topDoc
      split
      · rename_i t hty
        refine .node ?_ (by simp)
        intro p hp hpt
        rcases List.mem_append.1 hp with hp | hp
        · simp at hp
          rcases hp with rfl | rfl
          · rcases hpt with hpt | hpt <;> cases hpt
          · exact resolves_of_listed (ht.1 t hty)
        · rw [mem_optAttr hp] at hpt; rcases hpt with hpt | hpt <;> cases hpt
      · rename_i c hty
        refine .node ?_ ?_
        · intro p hp hpt
          rcases List.mem_append.1 hp with hp | hp
          · simp at hp; subst hp; rcases hpt with hpt | hpt <;> cases hpt
          · rw [mem_optAttr hp] at hpt; rcases hpt with hpt | hpt <;> cases hpt
        · intro k hk
          simp at hk; subst hk
          exact refs_complex fun e he => resolves_of_listed (ht.2 c hty e he)
      · intro k hk r hr
        rcases hk.cases_head with rfl | ⟨_, hc, _⟩
        · rcases hr with hr | hr <;> cases hr
        · cases hc

theorem document_named {s : GSchema} {k : Xml} {n : Str} (hk : k ∈ (document s).children)
    (ht : k.IsXsd py"simpleType" ∨ k.IsXsd py"complexType") (hn : k.plainAttr py"name" = some n) :
    (∃ c ∈ s.complexTypes, refName c.name = n) ∨ ∃ st ∈ s.simpleTypes, refName st.name = n := by
  have hk : k ∈ _ ++ _ ++ _ ++ _ ++ _ := hk
  simp only [List.mem_append, List.mem_map] at hk
  rcases hk with (((⟨i, _, rfl⟩ | ⟨i, _, rfl⟩) | ⟨st, hst, rfl⟩) | ⟨c, hc, rfl⟩) | ⟨e, he, rfl⟩
  · rcases ht with ⟨_, _, _, h⟩ | ⟨_, _, _, h⟩ <;> cases h
  · rcases ht with ⟨_, _, _, h⟩ | ⟨_, _, _, h⟩ <;> cases h
  · refine .inr ⟨st, hst, ?_⟩
    have : some (refName st.name) = some n := hn
    injection this
  · refine .inl ⟨c, hc, ?_⟩
    have : some (refName c.name) = some n := hn
    injection this
  · unfold topDoc at ht
    split at ht <;> rcases ht with ⟨_, _, _, h⟩ | ⟨_, _, _, h⟩ <;> cases h

/-- **C80 (types of other schemas).** A field whose class is not listed in the schema, for example because it belongs to
an imported schema, is declared with a reference to the schema itself that resolves to nothing. -/
theorem C80_foreign_dangles (v : Version) (D : Nat) (s : GSchema) (x : Xml) (h : generateSchema v (D + 12) s = .ok x)
    (c : GComplex) (hc : c ∈ s.complexTypes) (e : GElem) (he : e ∈ c.elements) (hp : e.passedClass = true) (n : Str)
    (ht : e.type.cls = .complex n) (h1 : ∀ c ∈ s.complexTypes, refName c.name ≠ refName n)
    (h2 : ∀ st ∈ s.simpleTypes, refName st.name ≠ refName n) :
    ∃ k, Within x k ∧ k.plainAttr py"name" = some e.written ∧ k.plainAttr py"type" = some (py"sns:" ++ refName n) ∧
      ¬ Resolves x (py"sns:" ++ refName n) := by
  obtain ⟨⟨hb, _⟩, rfl⟩ := (C79_document v D s x).1 h
  have hcb := hb.2.1 c hc
  obtain ⟨i, hi⟩ : ∃ i, c.indicator = some i := by
    cases hci : c.indicator with
    | none => rw [hcb.2.2.2 hci] at he; cases he
    | some i => exact ⟨i, rfl⟩
  refine ⟨elementDoc e, ?_, rfl, ?_, ?_⟩
  · refine ((Within.self.child (k := complexDoc c true) ?_).child
      (k := xsdNode i.tagName [] (c.elements.map elementDoc)) ?_).child (List.mem_map.2 ⟨e, he, rfl⟩)
    · show _ ∈ _ ++ _ ++ _ ++ _ ++ _
      simp only [List.mem_append, List.mem_map]
      exact .inl (.inr ⟨c, hc, rfl⟩)
    · show _ ∈ List.map _ _
      rw [hi]; simp
  · rw [elementDoc, plainAttr_of_mem, hp, ht]; rfl
  · rintro (⟨m, _, hm⟩ | ⟨m, k, hm, hk, hkt, hkn⟩)
    · have := congrArg (List.take 1) hm; exact absurd (List.cons.inj this).1 (by decide)
    · have hm := List.append_cancel_left hm
      subst hm
      rcases document_named hk hkt hkn with ⟨c, hc, h⟩ | ⟨st, hst, h⟩
      · exact h1 c hc h
      · exact h2 st hst h

/-! ### An example -/

namespace Ex

/-- A class with a code in place and a number of items:

    class Item(xsd.ComplexType):
        code = xsd.Element(xsd.String(enumeration=['a', 'b']))
        count = xsd.Element(xsd.Integer(minInclusive=0, maxInclusive=9))
        sub = xsd.ListElement(Part, 'part', minOccurs=0, maxOccurs=xsd.UNBOUNDED) -/
def item : GComplex :=
  { name := py"Item"
    elements := [
      { name := py"code", passedClass := false,
        type := { cls := .builtin .string, enumeration := some [.str py"a", .str py"b"] } },
      { name := py"count", passedClass := false,
        type := { cls := .builtin (.int .integer), minInclusive := some (.int 0), maxInclusive := some (.int 9) } },
      { name := py"sub", tagname := some py"part", minOccurs := some 0, maxOccurs := some (some .unbounded),
        type := { cls := .complex py"Part" } }] }

def itemSchema : GSchema := { targetNamespace := py"urn:i", complexTypes := [item, { name := py"Part" }] }

/-- The smaller bound 0 is missing from the document. -/
example : generateSchema .soap11 12 itemSchema = .ok (xsdNode py"schema"
    [(py"targetNamespace", py"urn:i"), (py"elementFormDefault", py"unqualified")]
    [xsdNode py"complexType" [(py"name", py"item")] [xsdNode py"sequence" [] [
      xsdNode py"element" [(py"name", py"code"), (py"minOccurs", py"1"), (py"nillable", py"false")]
        [xsdNode py"simpleType" [] [xsdNode py"restriction" [(py"base", py"xsd:string")]
          [facetNode py"enumeration" py"a", facetNode py"enumeration" py"b"]]],
      xsdNode py"element" [(py"name", py"count"), (py"minOccurs", py"1"), (py"nillable", py"false")]
        [xsdNode py"simpleType" [] [xsdNode py"restriction" [(py"base", py"xsd:integer")]
          [facetNode py"maxInclusive" py"9"]]],
      xsdNode py"element" [(py"name", py"part"), (py"type", py"sns:part"), (py"minOccurs", py"0"),
        (py"maxOccurs", py"unbounded"), (py"nillable", py"false")] []]],
    xsdNode py"complexType" [(py"name", py"part")] [xsdNode py"sequence" [] []]]) := by
  rfl

example : ClosedSchema itemSchema := by
  refine ⟨?_, by simp [itemSchema], by simp [itemSchema]⟩
  intro c hc e he
  simp [itemSchema] at hc
  rcases hc with rfl | rfl
  · simp [item] at he
    rcases he with rfl | rfl | rfl
    · exact .builtin (by decide)
    · exact .builtin (by decide)
    · exact ListedType.complex (s := itemSchema) (c := { name := py"Part" }) (by simp [itemSchema])
  · cases he

/-- Without the class `Part` in the schema the reference dangles. -/
example : ∀ x, generateSchema .soap11 12 { itemSchema with complexTypes := [item] } = .ok x →
    ∃ k, Within x k ∧ k.plainAttr py"type" = some py"sns:part" ∧ ¬ Resolves x py"sns:part" := by
  intro x hx
  obtain ⟨k, h1, _, h2, h3⟩ := C80_foreign_dangles .soap11 0 _ x hx item (by simp)
    { name := py"sub", tagname := some py"part", minOccurs := some 0, maxOccurs := some (some .unbounded),
      type := { cls := .complex py"Part" } } (by simp [item]) rfl py"Part" rfl
    (by intro c hc; simp at hc; subst hc; decide) (by simp [itemSchema])
  exact ⟨k, h1, h2, h3⟩

/-- An attribute makes generation impossible. -/
example : generateSchema .soap11 12 { targetNamespace := py"urn:i", complexTypes := [{ name := py"A", attributes := [
    { name := py"id", use := py"optional", type := { cls := .builtin .string } }] }] } = .error .valueError := by
  rfl

/-- The declarations for the class `Address` and an instance of it. -/
example : ∃ o, renderCls table 3 1 (.inst 1 [(py"city", .atom (.str py"X"))] none) none false = .ok o ∧
    FollowsSequence ([{ name := py"city", type := { cls := .builtin .string } : GElem }].map elementDoc) o.kids :=
  ⟨_, rfl, C62_follows table 2 1 1 [(py"city", .atom (.str py"X"))] none none false rfl _ rfl _
    (.cons ⟨rfl, rfl, rfl, fun _ => ⟨rfl, rfl⟩, nofun⟩ .nil) (by decide)
    (by intro f hf _ _; simp [table, address] at hf; subst hf; exact nofun) (by decide)⟩

end Ex

/-- C79: the namespace of the elements of the generated document. -/
theorem C79_namespace : nsXsd = py"http://www.w3.org/2001/XMLSchema" := rfl

end Soapfish
