import Verif.Spec.Serve
import Verif.Props.Wsdl
import Verif.DescribedLemmas
/-
Rewriting the locations in generated documents.
-/
namespace Soapfish

theorem rewriteAll_append {as bs as' bs' : List Xml} (h1 : rewriteAll as = .ok as') (h2 : rewriteAll bs = .ok bs') :
    rewriteAll (as ++ bs) = .ok (as' ++ bs') := by
  induction as generalizing as' with
  | nil => cases h1; exact h2
  | cons x xs ih =>
    rw [rewriteAll] at h1
    obtain ⟨y, hy, h1⟩ := bindI h1
    obtain ⟨ys, hys, h1⟩ := bindI h1
    cases h1
    simp only [List.cons_append, rewriteAll, hy, ih hys, Except_ok_bind]

theorem rewriteAll_map {α : Type} {f g : α → Xml} {l : List α} (h : ∀ a ∈ l, rewriteLocations (f a) = .ok (g a)) :
    rewriteAll (l.map f) = .ok (l.map g) := by
  induction l with
  | nil => rfl
  | cons a l ih =>
    simp only [List.map_cons, rewriteAll, h a (List.mem_cons_self ..), ih fun b hb => h b (List.mem_cons_of_mem _ hb),
      Except_ok_bind]

theorem rewrite_node {q : QName} {as : List (QName × Str)} {t : Option Str} {ks ks' : List Xml} (hq : isLink q = false)
    (hk : rewriteAll ks = .ok ks') : rewriteLocations (.elem q as t ks) = .ok (.elem q as t ks') := by
  simp only [rewriteLocations, hq, Bool.false_eq_true, if_false, hk, Except_ok_bind]

theorem rewrite_xsd {n : Str} {as : List (Str × Str)} {ks ks' : List Xml} (h1 : n ≠ py"import") (h2 : n ≠ py"include")
    (hk : rewriteAll ks = .ok ks') : rewriteLocations (xsdNode n as ks) = .ok (xsdNode n as ks') :=
  rewrite_node (by simp [isLink, h1, h2]) hk

theorem rewrite_facet {n v : Str} (h1 : n ≠ py"import") (h2 : n ≠ py"include") :
    rewriteLocations (facetNode n v) = .ok (facetNode n v) := rewrite_xsd h1 h2 rfl

theorem shownFacet_name {n : Str} {a : Option Atom} {p : Str × Str} (h : p ∈ shownFacet n a) : p.1 = n := by
  cases a with
  | none => cases h
  | some a =>
    simp only [shownFacet] at h
    split at h
    · cases h
    · simp only [List.mem_singleton] at h
      rw [h]

theorem rewrite_restriction {base : Str} {enums : List Atom} {facets : List (Str × Str)}
    (h : ∀ p ∈ facets, p.1 ≠ py"import" ∧ p.1 ≠ py"include") :
    rewriteLocations (restrictionDoc base enums facets) = .ok (restrictionDoc base enums facets) := by
  refine rewrite_xsd (by decide) (by decide) (rewriteAll_append ?_ ?_)
  · exact rewriteAll_map fun a _ => rewrite_facet (by decide) (by decide)
  · exact rewriteAll_map fun p hp => rewrite_facet (h p hp).1 (h p hp).2

theorem rewrite_inPlace (t : TypeObj) : rewriteLocations (inPlaceDoc t) = .ok (inPlaceDoc t) := by
  refine rewrite_xsd (by decide) (by decide) ?_
  simp only [rewriteAll]
  rw [rewrite_restriction]
  · rfl
  · intro p hp
    simp only [shownFacets, List.mem_append] at hp
    rcases hp with (((((h | h) | h) | h) | h) | h) | h <;> rw [shownFacet_name h] <;> decide

theorem rewrite_element (e : GElem) : rewriteLocations (elementDoc e) = .ok (elementDoc e) := by
  refine rewrite_xsd (by decide) (by decide) ?_
  split
  · rfl
  · simp only [rewriteAll, rewrite_inPlace, Except_ok_bind]

theorem rewrite_complex (c : GComplex) (named : Bool) : rewriteLocations (complexDoc c named) = .ok (complexDoc c named) := by
  refine rewrite_xsd (by decide) (by decide) (rewriteAll_map fun i _ => ?_)
  refine rewrite_xsd ?_ ?_ (rewriteAll_map fun e _ => rewrite_element e)
  · cases i <;> decide
  · cases i <;> decide

theorem rewrite_simple (st : GSimple) : rewriteLocations (simpleDoc st) = .ok (simpleDoc st) := by
  refine rewrite_xsd (by decide) (by decide) ?_
  simp only [rewriteAll]
  rw [rewrite_restriction]
  · rfl
  · intro p hp
    unfold simpleFacets at hp
    split at hp
    · rw [shownFacet_name hp]; decide
    · rw [shownFacet_name hp]; decide

theorem rewrite_top (e : GTop) : rewriteLocations (topDoc e) = .ok (topDoc e) := by
  unfold topDoc
  split
  · exact rewrite_xsd (by decide) (by decide) rfl
  · refine rewrite_xsd (by decide) (by decide) ?_
    simp only [rewriteAll, rewrite_complex, Except_ok_bind]
  · rfl

theorem given_some {l : Str} (h : l ≠ []) : givenLocation (some l) = some l := by
  unfold givenLocation
  rw [if_neg (by simpa using h)]

theorem given_link (l : Str) : givenLocation (some (py"?xsd=" ++ l)) = some (py"?xsd=" ++ l) := given_some (by simp)

theorem given_none {l : Option Str} (h : ¬ ∃ m, l = some m ∧ m ≠ []) : givenLocation l = none := by
  unfold givenLocation
  split
  · rfl
  · rename_i hne
    cases l with
    | none => rfl
    | some m => exact absurd ⟨m, rfl, fun e => hne (by rw [e])⟩ h

theorem rewrite_import_ok {i : Str × Option Str} {l : Str} (h : i.2 = some l) (hl : l ≠ []) :
    rewriteLocations (importDoc i) = .ok (importDoc (i.1, i.2.map (py"?xsd=" ++ ·))) := by
  obtain ⟨n, o⟩ := i
  subst h
  simp only [importDoc, given_some hl, Option.map_some, given_link]
  rfl

theorem rewrite_include_ok {i : Option Str} {l : Str} (h : i = some l) (hl : l ≠ []) :
    rewriteLocations (includeDoc i) = .ok (includeDoc (i.map (py"?xsd=" ++ ·))) := by
  subst h
  simp only [includeDoc, given_some hl, Option.map_some, given_link]
  rfl

theorem rewrite_import_error {i : Str × Option Str} (h : ¬ ∃ l, i.2 = some l ∧ l ≠ []) :
    rewriteLocations (importDoc i) = .error .keyError := by
  simp only [importDoc, given_none h]
  rfl

theorem rewrite_include_error {i : Option Str} (h : ¬ ∃ l, i = some l ∧ l ≠ []) :
    rewriteLocations (includeDoc i) = .error .keyError := by
  simp only [includeDoc, given_none h]
  rfl

theorem rewrite_document {s : GSchema} (h : s.Located) : rewriteLocations (document s) = .ok (document s.linked) := by
  refine rewrite_xsd (by decide) (by decide) ?_
  refine rewriteAll_append (rewriteAll_append (rewriteAll_append (rewriteAll_append ?_ ?_) ?_) ?_) ?_
  · simp only [GSchema.linked, List.map_map]
    exact rewriteAll_map fun i hi => let ⟨_, h1, h2⟩ := h.1 i hi; rewrite_import_ok h1 h2
  · simp only [GSchema.linked, List.map_map]
    exact rewriteAll_map fun i hi => let ⟨_, h1, h2⟩ := h.2 i hi; rewrite_include_ok h1 h2
  · exact rewriteAll_map fun st _ => rewrite_simple st
  · exact rewriteAll_map fun c _ => rewrite_complex c true
  · exact rewriteAll_map fun e _ => rewrite_top e

theorem rewriteAll_mem {xs ys : List Xml} (h : rewriteAll xs = .ok ys) : ∀ x ∈ xs, ∃ y, rewriteLocations x = .ok y := by
  induction xs generalizing ys with
  | nil => intro x hx; cases hx
  | cons x xs ih =>
    rw [rewriteAll] at h
    obtain ⟨y, hy, h⟩ := bindI h
    obtain ⟨zs, hzs, h⟩ := bindI h
    intro z hz
    rcases List.mem_cons.1 hz with rfl | hz
    · exact ⟨y, hy⟩
    · exact ih hzs z hz

theorem rewrite_kids {q : QName} {as : List (QName × Str)} {t : Option Str} {ks : List Xml} {y : Xml}
    (h : rewriteLocations (.elem q as t ks) = .ok y) : ∀ x ∈ ks, ∃ y, rewriteLocations x = .ok y := by
  rw [rewriteLocations] at h
  obtain ⟨_, _, h⟩ := bindI h
  obtain ⟨_, h1, _⟩ := bindI h
  exact rewriteAll_mem h1

theorem located_of {s : GSchema} {y : Xml} (h : rewriteLocations (document s) = .ok y) : s.Located := by
  have hk := rewrite_kids h
  refine ⟨fun i hi => ?_, fun i hi => ?_⟩
  · refine Classical.byContradiction fun hn => ?_
    obtain ⟨y, hy⟩ := hk (importDoc i) (by
      simp only [List.mem_append, List.mem_map]
      exact .inl (.inl (.inl (.inl ⟨i, hi, rfl⟩))))
    rw [rewrite_import_error hn] at hy
    cases hy
  · refine Classical.byContradiction fun hn => ?_
    obtain ⟨y, hy⟩ := hk (includeDoc i) (by
      simp only [List.mem_append, List.mem_map]
      exact .inl (.inl (.inl (.inr ⟨i, hi, rfl⟩))))
    rw [rewrite_include_error hn] at hy
    cases hy

theorem rewrite_wsdlNode {n : Str} {as : List (Str × Str)} {ks ks' : List Xml} (hk : rewriteAll ks = .ok ks') :
    rewriteLocations (wsdlNode n as ks) = .ok (wsdlNode n as ks') :=
  rewrite_node (by
    have : nsWsdl ≠ nsXsd := by decide
    simp [isLink, this]) hk

theorem rewrite_soapNode {v : Version} {n : Str} {as : List (Str × Str)} :
    rewriteLocations (soapNode v n as) = .ok (soapNode v n as) :=
  rewrite_node (by
    have : v.bindingNs ≠ nsXsd := by cases v <;> decide
    simp [isLink, this]) rfl

theorem rewrite_list_same {xs : List Xml} (h : ∀ x ∈ xs, rewriteLocations x = .ok x) : rewriteAll xs = .ok xs := by
  have := rewriteAll_map (f := id) (g := id) (l := xs) h
  simpa using this

theorem rewrite_message (n : Str) (p : WPart) : rewriteLocations (messageDoc n p) = .ok (messageDoc n p) :=
  rewrite_wsdlNode (rewrite_list_same fun x hx => by
    rw [List.mem_singleton] at hx; subst hx
    exact rewrite_wsdlNode rfl)

theorem rewrite_wsdl {s : WService} (h : ∀ g ∈ s.schemas, g.Located) :
    rewriteLocations (wsdlDocument s) = .ok (wsdlDocument { s with schemas := s.schemas.map (·.linked) }) := by
  refine rewrite_wsdlNode (rewriteAll_append (rewriteAll_append (rewriteAll_append (rewriteAll_append ?_ ?_) ?_) ?_) ?_)
  · have := rewrite_wsdlNode (n := py"types") (as := []) (rewriteAll_map (f := document) (g := fun g => document g.linked)
      fun g hg => rewrite_document (h g hg))
    simp only [rewriteAll, this, Except_ok_bind, List.map_map]
    rfl
  · refine rewrite_list_same fun x hx => ?_
    obtain ⟨m, _, hx⟩ := List.mem_flatMap.1 hx
    simp only [messagesDoc, List.mem_cons, List.not_mem_nil, or_false] at hx
    rcases hx with rfl | rfl <;> exact rewrite_message _ _
  · refine rewrite_list_same fun x hx => ?_
    rw [List.mem_singleton] at hx; subst hx
    refine rewrite_wsdlNode (rewriteAll_map fun m _ => rewrite_wsdlNode rfl)
  · refine rewrite_list_same fun x hx => ?_
    rw [List.mem_singleton] at hx; subst hx
    refine rewrite_wsdlNode (rewriteAll_append (rewriteAll_map fun m _ => ?_) ?_)
    · refine rewrite_wsdlNode (rewrite_list_same fun x hx => ?_)
      simp only [List.mem_cons, List.not_mem_nil, or_false] at hx
      rcases hx with rfl | rfl | rfl
      · exact rewrite_wsdlNode (rewrite_list_same fun x hx => by
          rw [List.mem_singleton] at hx; subst hx; exact rewrite_soapNode)
      · exact rewrite_wsdlNode (rewrite_list_same fun x hx => by
          rw [List.mem_singleton] at hx; subst hx; exact rewrite_soapNode)
      · exact rewrite_soapNode
    · exact rewrite_list_same fun x hx => by
        rw [List.mem_singleton] at hx; subst hx; exact rewrite_soapNode
  · refine rewrite_list_same fun x hx => ?_
    rw [List.mem_singleton] at hx; subst hx
    refine rewrite_wsdlNode (rewrite_list_same fun x hx => ?_)
    rw [List.mem_singleton] at hx; subst hx
    exact rewrite_wsdlNode (rewrite_list_same fun x hx => by
      rw [List.mem_singleton] at hx; subst hx; exact rewrite_soapNode)

theorem located_wsdl {s : WService} {y : Xml} (h : rewriteLocations (wsdlDocument s) = .ok y) : ∀ g ∈ s.schemas, g.Located := by
  intro g hg
  obtain ⟨t, ht⟩ := rewrite_kids h (wsdlNode py"types" [] (s.schemas.map document)) (by
    simp only [List.mem_append, List.mem_singleton]
    exact .inl (.inl (.inl (.inl trivial))))
  obtain ⟨y, hy⟩ := rewrite_kids ht (document g) (List.mem_map.2 ⟨g, hg, rfl⟩)
  exact located_of hy

end Soapfish
