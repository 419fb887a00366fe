import Verif.PublishedDocument
import Verif.PublishedRead
import Verif.Spec.Kept
/-
Lemmas for C107: the elements in valid documents are known to the program's classes.
-/
namespace Soapfish

section
variable {compile : Str → Pattern} {iso : Iso} {cls top : Str → ClsId} {T : Table} {s : GSchema} {limit : Nat}

theorem field_written {e : GElem} {f : Field} (h : FieldShown compile iso cls e f) : f.writtenName = e.written := by
  unfold Field.writtenName GElem.written
  rw [h.name, h.tagname]

theorem complex_name (hs : SchemaSurvives s limit) {c : GComplex} (hc : c ∈ s.complexTypes) : ClassName c.name :=
  hs.names _ (by
    unfold moduleNames
    exact List.mem_append_left _ (List.mem_append_right _ (List.mem_map.2 ⟨c, hc, rfl⟩)))

theorem pyName_inj_of {l : List GElem} (h : (l.map fun e => pyName e.written).Nodup) {e e' : GElem} (he : e ∈ l) (he' : e' ∈ l)
    (hw : e.written = e'.written) : e = e' := by
  induction l with
  | nil => cases he
  | cons a l ih =>
    simp only [List.map_cons, List.nodup_cons] at h
    rcases List.mem_cons.1 he with he | hm
    · subst he
      rcases List.mem_cons.1 he' with he' | he'
      · exact he'.symm
      · exact absurd (List.mem_map.2 ⟨e', he', (congrArg pyName hw).symm⟩) h.1
    · rcases List.mem_cons.1 he' with he' | he'
      · subst he'
        exact absurd (List.mem_map.2 ⟨_, hm, congrArg pyName hw⟩) h.1
      · exact ih h.2 hm he'

variable (T s cls) in
/-- An element as declared, with children that are known to the class of its type. -/
def KnownElem (e : DElement) (x : Xml) : Prop :=
  ∃ n as t ks, e.name = some n ∧ x = .elem (localTag (schemaOf s) n) as t ks ∧
    ∀ c ∈ s.complexTypes, e.type = some (py"sns:" ++ refName c.name) → Known T (cls c.name) x

theorem known_nokids {c : ClsId} {q : QName} {as : List (QName × Str)} {t : Option Str} : Known T c (.elem q as t []) :=
  .mk (fun _ _ _ _ h => absurd h List.not_mem_nil) fun _ _ _ _ _ _ h => absurd h List.not_mem_nil

theorem localTag_loc (d : DSchema) (n : Str) : (localTag d n).loc = n := by
  unfold localTag
  split <;> rfl

mutual
theorem known_content (hs : SchemaSurvives s limit) (he : Enforced s) (hT : Shown compile iso cls top T s) {means : Str → Str → Prop}
    {LA LE : Builtin → Str → Prop} : ∀ {ct as ks}, ValidContent [some py"xsd"] (schemaOf s) means LA LE ct as ks →
    ∀ c ∈ s.complexTypes, ct = { name := some (refName c.name), content := contentOf c } → ∀ q t,
    Known T (cls c.name) (.elem q as t ks)
  | _, _, ks, .sequence h1 _ _ h4, c, hc, hct, q, t => by
    have hcs := hs.complex c hc
    have hsh := hT.complex c hc
    have hk := known_sequence hs he hT h4
    subst hct
    cases h1 with
    | extension h => cases h
    | own =>
      have hels : (contentOf c).elements = c.elements.map elementOf := by
        unfold contentOf DContent.elements
        simp only [he.order c hc, if_true]
        rfl
      simp only [List.map_cons, List.map_nil, List.flatten_cons, List.flatten_nil, List.append_nil, hels] at hk
      have elem_mem : ∀ q as t k, Xml.elem q as t k ∈ ks → Xml.elem q as t k ∈ withoutComments ks := fun q as t k h =>
        List.mem_filter.2 ⟨h, rfl⟩
      have decl : ∀ q as t k, Xml.elem q as t k ∈ ks → ∃ e ∈ c.elements, q.loc = e.written ∧
          ∀ c' ∈ s.complexTypes, (elementOf e).type = some (py"sns:" ++ refName c'.name) → Known T (cls c'.name) (.elem q as t k) := by
        intro q as t k h
        obtain ⟨d, hd, n, as', t', k', g1, g2, g3⟩ := hk _ (elem_mem q as t k h)
        obtain ⟨e, hem, rfl⟩ := List.mem_map.1 hd
        cases g1
        refine ⟨e, hem, ?_, g3⟩
        injection g2 with g2
        rw [g2]
        exact localTag_loc _ _
      refine .mk (fun q as t k h => ?_) fun q as t k f d h hf _ hq hd => ?_
      · obtain ⟨e, hem, h1, _⟩ := decl q as t k h
        obtain ⟨f, hf, hfe⟩ := hsh.fields.mem_left hem
        refine ⟨f, hf, ?_, by rw [field_written hfe]; exact h1⟩
        rcases hfe.occurs with o | o <;> rw [o.1] <;> decide
      · obtain ⟨e, hem, h1, h2⟩ := decl q as t k h
        obtain ⟨e', hem', hfe⟩ := hsh.fields.mem_right hf
        have : e' = e := pyName_inj_of hcs.distinct hem' hem (by rw [← field_written hfe, ← hq, h1])
        subst this
        have hty := hfe.type
        rw [hd] at hty
        cases hty with
        | @complex n hn =>
          have hts : TypeSurvives s e'.type.cls := by
            rcases (hcs.elements e' hem).2 with g | g
            · exact g.2.1
            · rw [((he.elements c hc e' hem).type).1] at g; cases g.1
          rw [hn] at hts
          obtain ⟨c', hc', rfl⟩ := hts
          refine h2 c' hc' ?_
          unfold elementOf
          simp only [((he.elements c hc e' hem).type).1, if_true, hn]
          rfl
theorem known_sequence (hs : SchemaSurvives s limit) (he : Enforced s) (hT : Shown compile iso cls top T s) {means : Str → Str → Prop}
    {LA LE : Builtin → Str → Prop} : ∀ {es xs}, ValidSequence [some py"xsd"] (schemaOf s) means LA LE es xs →
    ∀ x ∈ xs, ∃ e ∈ es, KnownElem cls T s e x
  | _, _, .nil, _, h => absurd h List.not_mem_nil
  | _, _, .cons (e := e) h1 _ h3, x, h => by
    rcases List.mem_append.1 h with h | h
    · exact ⟨e, List.mem_cons_self .., known_element hs he hT (h1 x h)⟩
    · obtain ⟨e', he', hk⟩ := known_sequence hs he hT h3 x h
      exact ⟨e', List.mem_cons_of_mem _ he', hk⟩
theorem known_element (hs : SchemaSurvives s limit) (he : Enforced s) (hT : Shown compile iso cls top T s) {means : Str → Str → Prop}
    {LA LE : Builtin → Str → Prop} : ∀ {e x}, ValidElement [some py"xsd"] (schemaOf s) means LA LE e x →
    KnownElem cls T s e x
  | _, _, .nil h1 _ => ⟨_, _, _, _, h1, rfl, fun _ _ _ => known_nokids⟩
  | _, _, .text h1 _ _ => ⟨_, _, _, _, h1, rfl, fun _ _ _ => known_nokids⟩
  | _, _, .content h1 h2 h3 _ h5 h6 _ h8 => by
    refine ⟨_, _, _, _, h1, rfl, fun c hc ht => ?_⟩
    have ht' := Option.some.inj (h2.symm.trans ht)
    obtain ⟨c', hc', heq⟩ := List.mem_map.1 h5
    have hq := (sns_qualified (complex_name hs hc)).split.symm.trans (ht' ▸ h3).split
    injection hq with hq
    injection hq with _ hl
    have hname : c.name = c'.name := refName_inj (complex_name hs hc) (complex_name hs hc') (hl.trans (Option.some.inj ((congrArg DComplex.name heq).trans h6)).symm)
    rw [hname]
    exact known_content hs he hT h8 c' hc' heq.symm _ _
end

end

end Soapfish
