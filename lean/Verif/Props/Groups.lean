import Verif.Props.Generate
/-
Groups in generated XSD documents (soapfish/py2xsd.py:90-119: only `_meta.fields` and `_meta.attributes` are described).
-/
set_option maxRecDepth 8000
namespace Soapfish

/-- The fields that `_meta.fields` holds: neither attributes nor references. -/
def Field.IsChild (f : Field) : Prop := f.kind = .element ∨ f.kind = .list

instance (f : Field) : Decidable f.IsChild := by unfold Field.IsChild; infer_instance

/-- The value of `f` is an instance of a group that adds the children `ks`. -/
def GroupAdds (T : Table) (n : Nat) (f : Field) (ns : Option Str) (q : Bool) (w : Val) (ks : List Xml) : Prop :=
  ∃ t o, f.type = .complex t ∧ renderCls T n t w ns q = .ok o ∧ o.kids = ks

theorem follows_named {decls ks : List Xml} (h : FollowsSequence decls ks) :
    ∀ k ∈ ks, ∃ decl ∈ decls, k.localName = decl.plainAttr py"name" := by
  induction h with
  | nil => intro k hk; cases hk
  | cons h1 _ _ ih =>
    intro k hk
    rcases List.mem_append.1 hk with hk | hk
    · exact ⟨_, List.mem_cons_self .., h1 k hk⟩
    · obtain ⟨d, hd, he⟩ := ih k hk
      exact ⟨d, List.mem_cons_of_mem _ hd, he⟩

theorem group_part {T : Table} {n : Nat} {f : Field} {w : Val} {ns : Option Str} {q : Bool} {p : Out} (hk : f.kind = .ref)
    (hw : w.IsGroup T) (ht : ∃ t, f.type = .complex t) (h : renderField T (renderCls T n) f w ns q = .ok p) :
    GroupAdds T n f ns q w p.kids := by
  obtain ⟨t, ht⟩ := ht
  have hg := isGroupInst_iff.2 hw
  obtain ⟨c, fs, x, rfl, _⟩ := hw
  unfold renderField at h
  rw [hk] at h
  simp only [renderRef, ht, renderType, bind_eq_ok] at h
  obtain ⟨⟨o, tx⟩, ⟨o', h1, h2⟩, h3⟩ := h
  injection h2 with h2
  injection h2 with h2 _
  subst h2
  rw [if_pos hg] at h3
  injection h3 with h3
  subst h3
  exact ⟨t, o', ht, h1, rfl⟩

/-- **C126 (written).** The generated XSD document has, for a listed class with a sequence, a complex type with a sequence that says nothing
about groups: the children of an instance follow it if and only if its groups add no children.  (`hapart`: the children of groups have other
names than the elements of the class.) -/
theorem C126_written (v : Version) (D : Nat) (s : GSchema) (x : Xml) (hx : generateSchema v (D + 12) s = .ok x)
    (g : GComplex) (hg : g ∈ s.complexTypes) (hgi : g.indicator = some .sequence)
    (T : Table) (n : Nat) (c c' : ClsId) (vals : List (Str × Val)) (src : Option Xml) (ns : Option Str) (q : Bool)
    (hh : (T c).header = false) (o : Out) (h : renderCls T (n + 1) c (.inst c' vals src) ns q = .ok o)
    (hes : All2 ViewOf ((T c').fields.filter (·.IsChild)) g.elements)
    (hkind : ∀ f ∈ (T c').fields, f.kind = .attribute ∨ f.IsChild ∨ f.kind = .ref)
    (hset : ∀ f ∈ (T c').fields, f.kind = .element → f.required = true → Dict.get? vals f.name ≠ some Val.none)
    (hbounds : ∀ f ∈ (T c').fields, f.kind = .list →
      f.minOccurs ≠ none ∧ f.maxOccurs ≠ none ∧ f.maxOccurs ≠ some (.int 0))
    (hgroups : ∀ f ∈ (T c').fields, f.kind = .ref → (∃ t, f.type = .complex t) ∧
      ∀ w, Dict.get? vals f.name = some w → w.IsGroup T)
    (hapart : ∀ f ∈ (T c').fields, f.kind = .ref → ∀ w ks, Dict.get? vals f.name = some w →
      GroupAdds T n f (nsInside T c ns) q w ks → ∀ k ∈ ks, ∀ e ∈ g.elements, k.localName ≠ some e.written) :
    ∃ ct sq, ct ∈ x.children ∧ ct.IsXsd py"complexType" ∧ ct.plainAttr py"name" = some (refName g.name) ∧
      ct.children = [sq] ∧ sq.IsXsd py"sequence" ∧ sq.children = g.elements.map elementDoc ∧
      (FollowsSequence sq.children o.kids ↔
        ∀ f ∈ (T c').fields, f.kind = .ref → ∀ w ks, Dict.get? vals f.name = some w → GroupAdds T n f (nsInside T c ns) q w ks → ks = []) := by
  obtain ⟨_, rfl⟩ := (C79_document v D s x).1 hx
  refine ⟨complexDoc g true, xsdNode py"sequence" [] (g.elements.map elementDoc), ?_, ⟨_, _, _, rfl⟩, rfl, ?_, ⟨_, _, _, rfl⟩, rfl, ?_⟩
  · show _ ∈ _ ++ _ ++ _ ++ _ ++ _
    simp only [List.mem_append, List.mem_map]
    exact .inl (.inr ⟨g, hg, rfl⟩)
  · show List.map _ _ = _
    rw [hgi]; rfl
  show FollowsSequence (g.elements.map elementDoc) o.kids ↔ _
  rcases renderCls_fields hh h with ⟨h, _⟩ | ⟨c1, vals1, x1, he, h⟩
  · cases h
  injection he with h1 h2 h3
  subst h1 h2 h3
  obtain ⟨parts, hp, hkids, hattrs⟩ := renderFields_parts h
  clear hattrs
  constructor
  · intro hf f hfm hk w ks hw hadds
    obtain ⟨p, hpm, w', hw', hr⟩ := hp.mem_left hfm
    rw [hw] at hw'
    injection hw' with hw'
    subst hw'
    have hpart := group_part hk ((hgroups f hfm hk).2 w hw) (hgroups f hfm hk).1 hr
    have hks : ks = p.kids := by
      obtain ⟨t, o1, ht, ho, rfl⟩ := hadds
      obtain ⟨t', o2, ht', ho', h2⟩ := hpart
      rw [ht] at ht'
      injection ht' with ht'
      subst ht'
      rw [show nsInside T c ns = innerNs T c ns from rfl] at ho
      rw [ho] at ho'
      injection ho' with ho'
      subst ho'
      exact h2
    subst hks
    cases hpk : p.kids with
    | nil => rfl
    | cons k l =>
      have hkm : k ∈ p.kids := by rw [hpk]; exact List.mem_cons_self ..
      have hko : k ∈ o.kids := by
        rw [hkids]
        exact List.mem_flatten.2 ⟨p.kids, List.mem_map.2 ⟨p, hpm, rfl⟩, hkm⟩
      obtain ⟨d, hd, hn⟩ := follows_named hf k hko
      obtain ⟨e, hem, rfl⟩ := List.mem_map.1 hd
      rw [elementDoc_name] at hn
      exact absurd hn (hapart f hfm hk w _ hw hadds k hkm e hem)
  · intro hno
    rw [hkids]
    clear hapart hkids h hg
    have hno' : ∀ f ∈ (T c').fields, f.kind = .ref → ∀ w p, Dict.get? vals f.name = some w →
        renderField T (renderCls T n) f w (innerNs T c ns) q = .ok p → p.kids = [] := fun f hf hk w p hw hr =>
      hno f hf hk w _ hw (group_part hk ((hgroups f hf hk).2 w hw) (hgroups f hf hk).1 hr)
    clear hno hgroups
    generalize g.elements = es at hes
    generalize (T c').fields = fs at *
    induction hp generalizing es with
    | nil => cases hes; exact .nil
    | @cons f p fs parts h1 _ ih =>
      obtain ⟨w, hw, hr⟩ := h1
      have ih' := ih (hkind := fun g hg => hkind g (by simp [hg])) (hset := fun g hg => hset g (by simp [hg]))
        (hbounds := fun g hg => hbounds g (by simp [hg])) (hno' := fun g hg => hno' g (by simp [hg]))
      by_cases hc : f.IsChild
      · rw [List.filter_cons_of_pos (by simpa using hc)] at hes
        cases hes with
        | @cons _ e _ es' he hes' =>
          have := contributes_allowed he hc (fun hke hr hn => hset f (by simp) hke hr (by rw [hw, hn])) (hbounds f (by simp))
            (renderField_contributes hr)
          exact .cons this.1 this.2 (ih' es' hes')
      · rw [List.filter_cons_of_neg (by simpa using hc)] at hes
        have hks : p.kids = [] := by
          rcases hkind f (by simp) with ha | hc' | hk
          · have hcon := renderField_contributes hr
            generalize p.kids = ks at hcon
            cases hcon with
            | «attribute» _ => rfl
            | absent h => rfl
            | single h => rw [ha] at h; cases h
            | list h => rw [ha] at h; cases h
            | noName h => rfl
            | noValue h => rfl
            | named h => rw [ha] at h; cases h
            | noNameText h => rw [ha] at h; cases h
            | group h => rw [ha] at h; rcases h with h | h <;> cases h
            | groupAsText h => rfl
            | other h => rw [ha] at h; rcases h with h | h <;> cases h
          · exact absurd hc' hc
          · exact hno' f (by simp) hk w p hw hr
        rw [List.map_cons, List.flatten_cons, hks]
        exact ih' es hes

/-- **C126 (rejected).** So an instance one of whose groups holds anything is not written as the XSD document says. -/
theorem C126_rejected (es : List GElem) (T : Table) (n : Nat) (c c' : ClsId) (vals : List (Str × Val)) (src : Option Xml) (ns : Option Str)
    (q : Bool) (hh : (T c).header = false) (o : Out) (h : renderCls T (n + 2) c (.inst c' vals src) ns q = .ok o)
    (f : Field) (hf : f ∈ (T c').fields) (hk : f.kind = .ref) (t : ClsId) (ht : f.type = .complex t) (hht : (T t).header = false)
    (d : ClsId) (gv : List (Str × Val)) (gx : Option Xml) (hv : Dict.get? vals f.name = some (.inst d gv gx)) (hd : (T d).isGroup = true)
    (e : Field) (he : e ∈ (T d).fields) (hek : e.kind = .element) (w : Val) (hw : Dict.get? gv e.name = some w) (hn : w ≠ Val.none)
    (hname : ∀ g ∈ es, g.written ≠ e.writtenName) : ¬ FollowsSequence (es.map elementDoc) o.kids := by
  intro hfol
  rcases renderCls_fields hh h with ⟨h, _⟩ | ⟨c1, vals1, x1, heq, h⟩
  · cases h
  injection heq with h1 h2 h3
  subst h1 h2 h3
  obtain ⟨parts, hp, hkids, _⟩ := renderFields_parts h
  obtain ⟨p, hpm, w', hw', hr⟩ := hp.mem_left hf
  rw [hv] at hw'
  injection hw' with hw'
  subst hw'
  obtain ⟨t', o1, ht', ho1, hpk⟩ := group_part hk ⟨_, _, _, rfl, hd⟩ ⟨t, ht⟩ hr
  rw [ht] at ht'
  injection ht' with ht'
  subst ht'
  rcases renderCls_fields hht ho1 with ⟨h, _⟩ | ⟨c1, vals1, x1, heq, h'⟩
  · cases h
  injection heq with h1 h2 h3
  subst h1 h2 h3
  obtain ⟨parts', hp', hkids', _⟩ := renderFields_parts h'
  obtain ⟨p', hpm', w', hw', hr'⟩ := hp'.mem_left he
  rw [hw] at hw'
  injection hw' with hw'
  subst hw'
  have hcon := renderField_contributes hr'
  have : ∃ k ∈ p'.kids, k.localName = some e.writtenName := by
    generalize p'.kids = ks at hcon
    cases hcon with
    | single _ _ hch => exact ⟨_, List.mem_cons_self .., child_localName hch⟩
    | absent => exact absurd rfl hn
    | «attribute» h => rw [hek] at h; cases h
    | list h => rw [hek] at h; cases h
    | noName h => rw [hek] at h; cases h
    | noValue h => rw [hek] at h; cases h
    | named h => rw [hek] at h; cases h
    | noNameText h => rw [hek] at h; cases h
    | group h => rcases h with h | h <;> rw [hek] at h <;> cases h
    | groupAsText h => rcases h with h | h <;> rw [hek] at h <;> cases h
    | other h => rcases h with h | h <;> rw [hek] at h <;> cases h
  obtain ⟨k, hkm, hkn⟩ := this
  have hko : k ∈ o.kids := by
    rw [hkids]
    refine List.mem_flatten.2 ⟨p.kids, List.mem_map.2 ⟨p, hpm, rfl⟩, ?_⟩
    rw [← hpk, hkids']
    exact List.mem_flatten.2 ⟨p'.kids, List.mem_map.2 ⟨p', hpm', rfl⟩, hkm⟩
  obtain ⟨dd, hdd, hnn⟩ := follows_named hfol k hko
  obtain ⟨g, hgm, rfl⟩ := List.mem_map.1 hdd
  rw [elementDoc_name, hkn] at hnn
  injection hnn with hnn
  exact hname g hgm hnn.symm

/-- **C126 (read).** And the groups of an instance that is read from a document that follows the XSD document are empty. -/
theorem C126_read (es : List GElem) (T : Table) (hT : T.Wf) (N n : Nat) (c : ClsId) (hc : (T c).choice = false) (q : QName)
    (a : List (QName × Str)) (t : Option Str) (ks : List Xml) (hks : FollowsSequence (es.map elementDoc) ks)
    (hnil : attrGet a qNil ≠ some py"true") (v : Val) (hv : parseCls T N (n + 2) c (.elem q a t ks) = .ok v)
    (f : Field) (hf : f ∈ (T c).fields) (hk : f.kind = .ref) (d : ClsId) (ht : f.type = .complex d) (hd : (T d).choice = false)
    (e : Field) (he : e ∈ (T d).fields) (hek : e.IsChild) (hname : ∀ g ∈ es, g.written ≠ e.name ∧ some g.written ≠ e.tagname) :
    ∃ u w, v.attr f.name = some u ∧ u.attr e.name = some w ∧ EmptyValue T e w := by
  obtain ⟨ess, fs, hes, rfl, _, hall⟩ := (parseCls_ok_iff (hT c) hc).1 hv
  obtain ⟨e0, u, _, hu, hg⟩ := hall f hf
  unfold fieldVal at hu
  rw [hk] at hu
  simp only [elemVal, bind_eq_ok] at hu
  obtain ⟨_, _, u0, hu0, hacc⟩ := hu
  rw [if_neg (by show ¬ attrGet a qNil = _; exact hnil), ht] at hu0
  simp only [parseType] at hu0
  have huu : u = u0 := by
    unfold Field.accept at hacc
    rw [if_neg (by rw [hk]; simp)] at hacc
    simp only [bind_eq_ok] at hacc
    obtain ⟨_, _, hacc⟩ := hacc
    unfold Field.acceptItem at hacc
    rw [if_neg (by rw [parseCls_inst hu0]; simp), ht] at hacc
    simp only [FType.accept] at hacc
    obtain ⟨_, _, _, rfl, _⟩ := (parseCls_ok_iff (hT d) hd).1 hu0
    unfold acceptCls at hacc
    simp only at hacc
    cases hhd : (T d).header <;> cases hs : isSub T d d <;> simp [hhd, hs] at hacc <;> exact hacc.symm
  subst huu
  obtain ⟨w, hw, hem⟩ := C32_missing_element T hT N n d hd q a t ks e he
    (by rcases hek with h | h <;> simp [h]) (fun k hkm hcl => by
      obtain ⟨dd, hdd, hnn⟩ := follows_named hks k hkm
      obtain ⟨g, hgm, rfl⟩ := List.mem_map.1 hdd
      obtain ⟨q', a', t', k', rfl, hq⟩ := hcl
      rw [elementDoc_name] at hnn
      have hnn : q'.loc = g.written := Option.some.inj hnn
      rcases hq with hq | hq
      · exact (hname g hgm).1 (hnn.symm.trans hq)
      · exact (hname g hgm).2 (by rw [← hnn, hq])) _ hu0
  exact ⟨u, w, hg, hw, hem⟩

/-! ### Examples -/

namespace ExGroups

/-- `class Person(xsd.Group): name = xsd.Element(xsd.String)` and
`class Job(xsd.ComplexType): title = xsd.Element(xsd.String); person = xsd.Ref(Person)` -/
def title : Field := { name := py"title", kind := .element, type := .simple (.string {}) }
def name : Field := { name := py"name", kind := .element, type := .simple (.string {}) }
def person : Field := { name := py"person", kind := .ref, type := .complex 1 }

def table : Table := fun c =>
  if c = 0 then { name := py"Job", mro := [0], fields := [title, person] }
  else if c = 1 then { name := py"Person", mro := [1], fields := [name], isGroup := true }
  else { name := py"Empty", fields := [], mro := [c] }

theorem table_wf : table.Wf := by
  intro c
  unfold table
  split
  · decide +kernel
  · split
    · decide +kernel
    · simp

def titleElem : GElem := { name := py"title", type := { cls := .builtin .string } }

def schema : GSchema := { targetNamespace := py"urn:j", complexTypes := [{ name := py"Job", elements := [titleElem] }] }

/-- The person is not in the XSD document, -/
example : generateSchema .soap11 12 schema = .ok (xsdNode py"schema" [(py"targetNamespace", py"urn:j"), (py"elementFormDefault", py"unqualified")]
    [xsdNode py"complexType" [(py"name", py"job")] [xsdNode py"sequence" [] [
      xsdNode py"element" [(py"name", py"title"), (py"type", py"xsd:string"), (py"minOccurs", py"1"), (py"nillable", py"false")] []]]]) := rfl

/-- but in what is written, -/
theorem written : renderCls table 3 0 (.inst 0 [(py"title", .atom (.str py"Programmer")),
    (py"person", .inst 1 [(py"name", .atom (.str py"An"))] none)] none) none false =
    .ok { kids := [.elem ⟨none, py"title"⟩ [] (some py"Programmer") [], .elem ⟨none, py"name"⟩ [] (some py"An") []] } := rfl

/-- which is not as the XSD document says. -/
example : ¬ FollowsSequence [elementDoc titleElem] [.elem ⟨none, py"title"⟩ [] (some py"Programmer") [], .elem ⟨none, py"name"⟩ [] (some py"An") []] :=
  C126_rejected [titleElem] table 1 0 0 _ none none false rfl _ written person (by simp [table]) rfl 1 rfl rfl 1 _ none rfl rfl name
    (by simp [table]) rfl _ rfl (by simp) (by intro g hg; cases List.mem_singleton.1 hg; decide)

/-- A job without a person is; when it is read, there is a person without a name. -/
example : FollowsSequence [elementDoc titleElem] [.elem ⟨none, py"title"⟩ [] (some py"Programmer") []] := by
  refine FollowsSequence.cons (block := [_]) (rest := []) (by simp [Xml.localName, elementDoc_name]; rfl) ?_ .nil
  exact ⟨⟨1, .inl rfl, by decide⟩, .inr ⟨1, .inr ⟨rfl, rfl⟩, by decide⟩⟩

example : parseCls table 3 3 0 (.elem ⟨none, py"job"⟩ [] none [.elem ⟨none, py"title"⟩ [] (some py"Programmer") []]) =
    .ok (.inst 0 [(py"title", .atom (.str py"Programmer")),
      (py"person", .inst 1 [(py"name", Val.none)] (some (.elem ⟨none, py"job"⟩ [] none [.elem ⟨none, py"title"⟩ [] (some py"Programmer") []])))]
      (some (.elem ⟨none, py"job"⟩ [] none [.elem ⟨none, py"title"⟩ [] (some py"Programmer") []]))) := rfl

end ExGroups

end Soapfish
