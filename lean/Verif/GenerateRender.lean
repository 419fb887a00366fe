import Verif.GenerateBuild
/-
Writing the description of a schema.
-/
set_option maxRecDepth 4000
namespace Soapfish

section
variable (v : Version) (n : Nat)

local notation "rn" k => renderCls (specTable v) k

theorem attrs_parts (p : ElementParts) :
    attrSetAll [] (p.attrs.map fun a => ((⟨none, a.1⟩ : QName), a.2)) = p.attrs.map fun a => (⟨none, a.1⟩, a.2) := by
  obtain ⟨name, type, mi, ma, nl, sg, _, _⟩ := p
  cases type <;> cases mi <;> cases ma <;> cases nl <;> cases sg <;> rfl

theorem mkElem_parts (p : ElementParts) (kids : List Xml) :
    mkElem ⟨some nsXsd, py"element"⟩ { attrs := p.attrs.map fun a => (⟨none, a.1⟩, a.2), kids := kids } none =
      xsdNode py"element" p.attrs kids := by
  unfold mkElem xsdNode
  rw [attrs_parts]

def elemOut (e : GElem) : Out :=
  { attrs := (elemParts e).attrs.map fun a => (⟨none, a.1⟩, a.2),
    kids := if e.passedClass then [] else [inPlaceDoc e.type] }

theorem render_field (e : GElem) :
    Renders ((rn (n + 4)) xElement (elementV (elemParts e)) (some nsXsd) true) (ElemWrites e) (elemOut e) := by
  unfold elemParts elemOut ElemWrites
  cases hp : e.passedClass with
  | true =>
    refine (render_element v (n + 3) { elemStart e with type := some (typeRef e.type.cls) }
      (renders_none rfl) (renders_none rfl)).congr' ?_ fun _ => ?_
    · simp [elemStart]
    · simp [elemParts, hp]
  | false =>
    have h := renders_elem (T := specTable v) (rc := rn (n + 3)) (ns := some nsXsd) (q := true)
      (f := elem py"simpleType" xSimpleType false) (c := xSimpleType) rfl rfl
      (render_simpleType v n none (typeRef e.type.cls) (shownEnums e.type) (facetsOf e.type))
    refine (render_element v (n + 3) { elemStart e with
      simpleType := simpleTypeV none (restrictionV (typeRef e.type.cls) ((shownEnums e.type).map enumV) (facetsOf e.type)) }
      h (renders_none rfl)).congr' ?_ fun _ => ?_
    · simp [elemStart, facetsOf_shown]
    · simp [elemParts, hp, facetsOf_shown]
      rfl

theorem elemOut_doc (e : GElem) : mkElem ⟨some nsXsd, py"element"⟩ (elemOut e) none = elementDoc e := by
  unfold elemOut
  rw [mkElem_parts]
  unfold elementDoc elemParts
  cases e.passedClass <;> simp [ElementParts.attrs, elemStart, optAttr]

def complexOut (c : GComplex) (named : Bool) : Out :=
  { attrs := (attrOut py"name" (if named then some (refName c.name) else none)).attrs,
    kids := c.indicator.toList.map fun j => xsdNode j.tagName [] (c.elements.map elementDoc) }

theorem render_complex (c : GComplex) (named : Bool) (hb : ComplexBuilds c named) :
    Renders ((rn (n + 6)) xComplexType (complexV c named) (some nsXsd) true) (ComplexWrites c named)
      (complexOut c named) := by
  have h := render_complexType v (n + 3) (val := fun e => elementV (elemParts e)) (P := ElemWrites) (o := elemOut)
    (if named then some (refName c.name) else none) c.indicator c.elements
    (c.attributes.map fun a => (a.name, typeRef a.type.cls, a.use)) hb.2.2.2 (fun _ => ⟨_, _, _, rfl⟩)
    (render_field v n)
  refine Gives.congr' h ?_ fun _ => ?_
  · unfold ComplexWrites
    cases named <;> simp
  · simp only [elemOut_doc]; rfl

theorem complexOut_doc (c : GComplex) (named : Bool) :
    mkElem ⟨some nsXsd, py"complexType"⟩ (complexOut c named) none = complexDoc c named := by
  cases named <;> rfl

def simpleOut (st : GSimple) : Out :=
  { attrs := [(⟨none, py"name"⟩, refName st.name)],
    kids := [restrictionDoc (typeRef st.base) (st.enumeration.getD []) (simpleFacets st)] }

theorem render_simple (st : GSimple) :
    Renders ((rn (n + 3)) xSimpleType (simpleV st) (some nsXsd) true) (SimpleWrites st) (simpleOut st) := by
  have hf : (facetsOfSimple st).shown = simpleFacets st := by
    unfold simpleFacets facetsOfSimple
    rw [shownFacet_eq]
    cases facetText st.fractionDigits with
    | some d => rfl
    | none => simp [shownFacet_eq, Facets.shown, Facets.list]
  refine (render_simpleType v n (some (refName st.name)) (typeRef st.base) (st.enumeration.getD []) _).congr' ?_ fun _ => ?_
  · rw [hf]; simp [SimpleWrites]
  · rw [hf]; rfl

theorem simpleOut_doc (st : GSimple) :
    mkElem ⟨some nsXsd, py"simpleType"⟩ (simpleOut st) none = simpleDoc st := rfl

theorem xmlOk_append {a b : Str} : XmlOk (a ++ b) ↔ XmlOk a ∧ XmlOk b := by
  simp [XmlOk, or_imp, forall_and]

theorem groupRef_xmlOk (g : Str) : XmlOk (groupRef g) ↔ XmlOk g := by
  unfold groupRef
  split
  · rfl
  · rw [xmlOk_append]
    have : XmlOk py"sns:" := by unfold XmlOk; decide
    simp [this]

def topOut (e : GTop) : Out :=
  { attrs := (topParts e).attrs.map fun a => (⟨none, a.1⟩, a.2),
    kids := match e.type with
      | .inst (some c) => [complexDoc c false]
      | _ => [] }

theorem render_top (e : GTop) (hb : TopBuilds e) :
    Renders ((rn (n + 7)) xElement (elementV (topParts e)) (some nsXsd) true) (TopWrites e) (topOut e) := by
  unfold TopBuilds at hb
  unfold topParts topOut TopWrites
  cases ht : e.type with
  | ofClass t =>
    refine (render_element v (n + 6) { topStart e with type := some (typeRef t) } (renders_none rfl) (renders_none rfl)).congr' ?_ fun _ => ?_
    · simp [topStart, groupRef_xmlOk]; exact fun _ => and_comm
    · simp [topParts, ht]
  | inst c =>
    rw [ht] at hb
    cases c with
    | none => exact hb.elim
    | some c =>
      refine (render_element v (n + 6) { topStart e with complexType := complexV c false } (renders_none rfl)
        (renders_elem (c := xComplexType) rfl rfl (render_complex v n c false hb))).congr' ?_ fun _ => ?_
      · simp [topStart, groupRef_xmlOk]
      · simp [topParts, ht]
        exact complexOut_doc c false

theorem topOut_doc (e : GTop) (hb : TopBuilds e) : mkElem ⟨some nsXsd, py"element"⟩ (topOut e) none = topDoc e := by
  unfold TopBuilds at hb
  unfold topOut
  rw [mkElem_parts]
  unfold topDoc topParts
  cases ht : e.type with
  | ofClass t => simp [ElementParts.attrs, optAttr, topStart]
  | inst c =>
    rw [ht] at hb
    cases c with
    | none => exact hb.elim
    | some c => simp [ElementParts.attrs, optAttr, topStart]

theorem render_import (i : Str × Option Str) :
    Renders ((rn (n + 1)) xImport (importV i.1 (givenLocation i.2)) (some nsXsd) true) (ImportWrites i)
      { attrs := (optAttr py"schemaLocation" (givenLocation i.2) ++ [(py"namespace", i.1)]).map
          fun a => (⟨none, a.1⟩, a.2) } := by
  refine (renders_cons rfl (renders_strAttr py"schemaLocation" false (givenLocation i.2)) <|
    renders_cons (v := optStr (some i.1)) rfl (renders_strAttr py"namespace" false (some i.1)) renders_nil).congr' ?_
    fun _ => ?_
  · simp [ImportWrites, and_comm]
  · simp [Out.append, attrOut_kids, attrOut_attrs]
    rfl

theorem import_doc (i : Str × Option Str) : mkElem ⟨some nsXsd, py"import"⟩
    { attrs := (optAttr py"schemaLocation" (givenLocation i.2) ++ [(py"namespace", i.1)]).map
          fun a => (⟨none, a.1⟩, a.2) } none = importDoc i := by
  unfold importDoc
  cases givenLocation i.2 <;> rfl

theorem render_include (i : Option Str) :
    Renders ((rn (n + 1)) xInclude (includeV (givenLocation i)) (some nsXsd) true) (IncludeWrites i)
      { attrs := (optAttr py"schemaLocation" (givenLocation i)).map fun a => (⟨none, a.1⟩, a.2) } := by
  refine (renders_cons rfl (renders_strAttr py"schemaLocation" true (givenLocation i)) renders_nil).congr' ?_
    fun _ => ?_
  · unfold IncludeWrites
    cases givenLocation i <;> simp
  · simp [Out.append, attrOut_kids, attrOut_attrs]

theorem include_doc (i : Option Str) : mkElem ⟨some nsXsd, py"include"⟩
    { attrs := (optAttr py"schemaLocation" (givenLocation i)).map fun a => (⟨none, a.1⟩, a.2) } none = includeDoc i := by
  unfold includeDoc
  cases givenLocation i <;> rfl

/-- As `renders_list`, for items of which only some are of interest. -/
theorem renders_list_mem {α : Type} {T : Table} {rc : RenderCls} {ns : Option Str} {q : Bool} {f : Field} {c : ClsId}
    {val : α → Val} {P : α → Prop} {o : α → Out} {l : List α} {t : Bool}
    (hk : f.kind = .list) (ht : f.type = .complex c) (hmin : f.minOccurs = none ∨ f.minOccurs = some 0)
    (hmax : f.maxOccurs = none) (hi : ∀ a, ∃ c' fs x, val a = .inst c' fs x)
    (h : ∀ a ∈ l, Renders (rc c (val a) (childNs f ns) q) (P a) (o a)) :
    Renders (renderField T rc f (.list t (l.map val)) ns q) (∀ a ∈ l, P a)
      { kids := l.map fun a => mkElem (childTag f f.tag ns q) (o a) none } := by
  have hm : l.map val = l.attach.map fun a => val a.1 := List.attach_map_val.symm
  rw [hm]
  refine (renders_list (val := fun a : { a // a ∈ l } => val a.1) (P := fun a => P a.1) (o := fun a => o a.1) hk ht hmin
    hmax (fun a => hi a.1) (fun a => h a.1 a.2)).congr' (by simp) fun _ => ?_
  congr 1
  exact List.attach_map_val (f := fun a => mkElem (childTag f f.tag ns q) (o a) none)

theorem renders_empty (T : Table) (rc : RenderCls) (ns : Option Str) (q : Bool) (name tag : Str) (c : ClsId) :
    Renders (renderField T rc (listOf name tag c) (.list true []) ns q) True {} := Gives.of_eq rfl

theorem render_schema (s : GSchema) (hb : Buildable s) :
    Renders ((rn (n + 8)) xSchema (describe s) (some nsXsd) true) (Writable s)
      { attrs := [(⟨none, py"targetNamespace"⟩, s.targetNamespace), (⟨none, py"elementFormDefault"⟩, formText s.qualified)],
        kids := s.imports.map importDoc ++ s.includes.map includeDoc ++ s.simpleTypes.map simpleDoc ++
          s.complexTypes.map (complexDoc · true) ++ s.elements.map topDoc } := by
  refine (renders_cons (v := optStr (some s.targetNamespace)) rfl
      (renders_strAttr py"targetNamespace" true (some s.targetNamespace)) <|
    renders_cons (v := optStr (some (formText s.qualified))) rfl
      (renders_enumAttr py"elementFormDefault" [py"qualified", py"unqualified"] false (.atom (.str py"unqualified"))
        (some (formText s.qualified))) <|
    renders_cons rfl (renders_list_mem (c := xImport) (val := fun i : Str × Option Str => importV i.1 (givenLocation i.2))
      rfl rfl (.inl rfl) rfl (fun _ => ⟨_, _, _, rfl⟩) (fun i _ => render_import v (n + 6) i)) <|
    renders_cons rfl (renders_list_mem (c := xInclude) (val := fun i : Option Str => includeV (givenLocation i))
      rfl rfl (.inl rfl) rfl (fun _ => ⟨_, _, _, rfl⟩) (fun i _ => render_include v (n + 6) i)) <|
    renders_cons rfl (renders_list_mem (c := xSimpleType) (val := simpleV)
      rfl rfl (.inl rfl) rfl (fun _ => ⟨_, _, _, rfl⟩) (fun st _ => render_simple v (n + 4) st)) <|
    renders_cons rfl (renders_empty _ _ _ _ py"groups" py"group" xGroup) <|
    renders_cons rfl (renders_empty _ _ _ _ py"attributeGroups" py"attributeGroup" xAttributeGroup) <|
    renders_cons rfl (renders_list_mem (c := xComplexType) (val := (complexV · true))
      rfl rfl (.inl rfl) rfl (fun _ => ⟨_, _, _, rfl⟩) (fun c hc => render_complex v (n + 1) c true (hb.2.1 c hc))) <|
    renders_cons rfl (renders_list_mem (c := xElement) (val := fun e => elementV (topParts e))
      rfl rfl (.inl rfl) rfl (fun _ => ⟨_, _, _, rfl⟩) (fun e he => render_top v n e (hb.2.2 e he))) renders_nil).congr' ?_
    fun _ => ?_
  · have hq : XmlOk (formText s.qualified) := by cases s.qualified <;> (unfold XmlOk; decide)
    simp [Writable, hq]
  · have e5 : s.elements.map (fun e => mkElem ⟨some nsXsd, py"element"⟩ (topOut e) none) = s.elements.map topDoc :=
      List.map_congr_left fun e he => topOut_doc e (hb.2.2 e he)
    have e1 : s.imports.map importDoc = _ := List.map_congr_left fun i _ => (import_doc i).symm
    have e2 : s.includes.map includeDoc = _ := List.map_congr_left fun i _ => (include_doc i).symm
    have e3 : s.simpleTypes.map simpleDoc = _ := List.map_congr_left fun i _ => (simpleOut_doc i).symm
    have e4 : s.complexTypes.map (complexDoc · true) = _ := List.map_congr_left fun i _ => (complexOut_doc i true).symm
    rw [e1, e2, e3, e4, ← e5]
    simp only [Out.append, attrOut, List.append_nil, List.nil_append, List.append_assoc]
    rfl

end

end Soapfish
