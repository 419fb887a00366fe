import Verif.Spec.WsdlFiles
import Verif.Props.Inline
/-
C120: the schemas of a WSDL document that include or import XSD documents.
-/
namespace Soapfish

theorem reorderVals_eq (l : List Val) : reorderVals l = (takeVals l).1 ++ (takeVals l).2 := by
  have e : (l.zipIdx.map fun p => (⟨(readSchema p.1).targetNamespace, (readSchema p.1).imports, p.2⟩ : WsdlSchema)) =
      l.zipIdx.map fun p => ⟨valTarget p.1, valImports p.1, p.2⟩ := rfl
  unfold reorderVals
  rw [e, reorder_eq, takeSchemas_map (imp := fun p : Val × Nat => valImports p.1) (tgt := fun p : Val × Nat => valTarget p.1) (fun _ => rfl) (fun _ => rfl)]
  have hz : l.zipIdx.map (·.1) = l := by simp
  have em := takeEarly_map (imp := fun p : Val × Nat => valImports p.1) (tgt := fun p : Val × Nat => valTarget p.1) (imp' := valImports) (tgt' := valTarget)
    (f := fun p : Val × Nat => p.1) (fun _ => rfl) (fun _ => rfl) l.zipIdx []
  rw [hz] at em
  rw [takeVals, em]
  simp only
  rw [← List.map_append, ← List.map_append]
  have hsub := fun a => takeEarly_sub (imp := fun p : Val × Nat => valImports p.1) (tgt := fun p : Val × Nat => valTarget p.1) [] l.zipIdx a
  generalize (takeEarly (fun p : Val × Nat => valImports p.1) (fun p : Val × Nat => valTarget p.1) [] l.zipIdx).1 ++
    (takeEarly (fun p : Val × Nat => valImports p.1) (fun p : Val × Nat => valTarget p.1) [] l.zipIdx).2 = o at *
  rw [List.filterMap_map]
  induction o with
  | nil => rfl
  | cons a o ih =>
    have ha := List.mem_zipIdx_iff_getElem?.1 (hsub a (by simp))
    rw [List.filterMap_cons, List.map_cons, ← ih fun b hb => hsub b (by simp [hb])]
    simp [ha]

theorem takeEarly_perm {α : Type} {imp : α → List (Option Str)} {tgt : α → Option Str} (targets : List (Option Str)) (l : List α) :
    ((takeEarly imp tgt targets l).1 ++ (takeEarly imp tgt targets l).2).Perm l := by
  induction l generalizing targets with
  | nil => exact .nil
  | cons s l ih =>
    unfold takeEarly
    split
    · exact List.perm_middle.trans ((ih targets).cons s)
    · exact (ih (tgt s :: targets)).cons s

theorem flatten_split {α : Type} {ss : List (List α)} {m1 m2 : List α} {c : α} (h : ss.flatten = m1 ++ c :: m2) :
    ∃ s1 s2 p q, ss = s1 ++ (p ++ c :: q) :: s2 ∧ m1 = s1.flatten ++ p := by
  induction ss generalizing m1 with
  | nil => cases m1 <;> cases h
  | cons s ss ih =>
    rw [List.flatten_cons] at h
    rcases first_split h with ⟨t, e⟩ | ⟨t, e1, e2⟩
    · exact ⟨[], ss, m1, t, by rw [e]; rfl, rfl⟩
    · obtain ⟨s1, s2, p, q, e3, e4⟩ := ih e2
      exact ⟨s :: s1, s2, p, q, by rw [e3]; rfl, by rw [e1, e4]; simp⟩

theorem mapE_all2_map {α β γ : Type} {f : α → Except Exn β} {g : β → γ} {l : List α} {r : List γ} (h : mapE (fun a => (f a).map g) l = .ok r) :
    All2 (fun a c => ∃ b, f a = .ok b ∧ c = g b) l r :=
  (mapE_all2 h).imp fun a c hac => by
    cases hf : f a with
    | error e => rw [hf] at hac; cases hac
    | ok b => rw [hf] at hac; injection hac with hac; exact ⟨b, rfl, hac.symm⟩

section
variable {wd : Str} {urljoin : Str → Str → Str} {netlocOk : Str → Bool} {digest : Str → Str} {read : Str → Except Exn DFile}
  {prefixes : List (Option Str)} {base : Str} {b : List Str} {files : List Str → Option DFile} {n : Nat} {parent : Option Str} {schemas : List Val}
  {segs : List (List FileCode)}

theorem wsdlFiles_segments (hw : ∀ s ∈ schemas, Documents base b read files (schemaFile prefixes s))
    (h : wsdlFiles wd urljoin netlocOk digest read prefixes base n parent schemas = .ok segs) :
    All2 (fun s seg => SegmentOf digest files b parent (schemaFile prefixes s) seg) ((takeVals schemas).1 ++ (takeVals schemas).2) segs := by
  unfold wsdlFiles at h
  rw [reorderVals_eq] at h
  refine (mapE_all2_map h).imp_mem fun s hs seg _ hss => ?_
  obtain ⟨r, hr, rfl⟩ := hss
  exact C117_code (hw s (takeEarly_sub [] schemas s hs)) n parent r hr

theorem wsdlFiles_named (hw : ∀ s ∈ schemas, Documents base b read files (schemaFile prefixes s))
    (h : wsdlFiles wd urljoin netlocOk digest read prefixes base n parent schemas = .ok segs) : NamedImports schemas := by
  intro s hm hn
  obtain ⟨seg, _, _, _, last, _, _, _, _, _, hc, _⟩ := (wsdlFiles_segments hw h).mem_left (takeEarly_all [] schemas s hm)
  obtain ⟨v, _, ns, e, _⟩ := hc.imports.mem_left (a := none) hn
  cases e

/-- **C120 (code).** What is generated for the schemas of a WSDL document: for each schema, in the order of C119, the code of the XSD documents it leads
to and then its own. -/
theorem C120_code (hw : ∀ s ∈ schemas, Documents base b read files (schemaFile prefixes s))
    (h : wsdlFiles wd urljoin netlocOk digest read prefixes base n parent schemas = .ok segs) :
    ∃ order, order.Perm schemas ∧ All2 (fun s seg => SegmentOf digest files b parent (schemaFile prefixes s) seg) order segs ∧
      ∀ before s after, schemas = before ++ s :: after → ∃ o1 o2, order = o1 ++ s :: o2 ∧ ∀ t, t ∈ o1 ↔ ComesFirst before s after t := by
  refine ⟨_, takeEarly_perm [] schemas, wsdlFiles_segments hw h, fun before s after e => ?_⟩
  subst e
  exact order_place (wsdlFiles_named hw h)

theorem calledIn_text {f : List Str} {s s' : Str} (h : CalledIn b f s) (h' : CalledIn b f s') : s = s' := by
  have key : ∀ {s}, CalledIn b f s → s = relText b f := by
    intro s h
    obtain ⟨way, h1, h2⟩ := h
    rw [shortWay_unique h1 (shortWay_rel b f)] at h2
    rw [relText, if_neg h2.1, h2.2.2]
  rw [key h, key h']

open Classical in
theorem count_docs (hw : Documents base b read files root) {f : List Str} {loc : Str} (hf : (files f).isSome) (hl : CalledIn b f loc)
    (hd : ∀ g t, (files g).isSome → CalledIn b g t → digest t = digest loc → t = loc) {L : List (List Str)} {cs : List FileCode}
    (h : All2 (DocCode digest files b) L cs) :
    cs.countP (fun c => decide (∃ u, c.second = some (u, varFor digest loc))) = L.countP (fun g => decide (g = f)) := by
  induction h with
  | nil => rfl
  | @cons g c L cs hgc _ ih =>
    rw [List.countP_cons, List.countP_cons, ih]
    have : (∃ u, c.second = some (u, varFor digest loc)) ↔ g = f := by
      obtain ⟨d, loc', u, hgd, _, hloc', hsec⟩ := hgc
      have hg : (files g).isSome := by rw [hgd]; rfl
      constructor
      · rintro ⟨u', e⟩
        rw [hsec] at e
        injection e with e
        injection e with _ e
        have := hd g loc' hg hloc' (varFor_inj e)
        subst this
        exact calledIn_unique hw hloc' hl hg hf
      · rintro rfl
        exact ⟨u, by rw [hsec, calledIn_text hloc' hl]⟩
    simp only [this]

open Classical in
/-- **C120 (copies).** The code of an XSD document is there as often as there are schemas that lead to it, so more than once if two schemas import it. -/
theorem C120_copies (hw : ∀ s ∈ schemas, Documents base b read files (schemaFile prefixes s))
    (h : wsdlFiles wd urljoin netlocOk digest read prefixes base n parent schemas = .ok segs) (f : List Str) (loc : Str) (hf : (files f).isSome)
    (hl : CalledIn b f loc) (hd : ∀ g t, (files g).isSome → CalledIn b g t → digest t = digest loc → t = loc) :
    segs.flatten.countP (fun c => decide (∃ u, c.second = some (u, varFor digest loc))) =
      schemas.countP (fun s => decide (Needed files b (schemaFile prefixes s) f)) := by
  rw [← (takeEarly_perm (imp := valImports) (tgt := valTarget) [] schemas).countP_eq]
  have hs := wsdlFiles_segments hw h
  have hw' : ∀ s ∈ (takeVals schemas).1 ++ (takeVals schemas).2, Documents base b read files (schemaFile prefixes s) :=
    fun s hs => hw s (takeEarly_sub [] schemas s hs)
  revert hs hw'
  show _ → _ → _ = ((takeVals schemas).1 ++ (takeVals schemas).2).countP _
  generalize (takeVals schemas).1 ++ (takeVals schemas).2 = o
  intro hs hw'
  clear h
  induction hs with
  | nil => rfl
  | @cons s seg o segs hss _ ih =>
    rw [List.flatten_cons, List.countP_append, List.countP_cons, ih fun t ht => hw' t (by simp [ht]), Nat.add_comm]
    congr 1
    obtain ⟨L, cs, last, rfl, hnd, hL, _, hcs, _, hlast⟩ := hss
    rw [List.countP_append, count_docs (hw' s (by simp)) hf hl hd hcs]
    have h0 : [last].countP (fun c => decide (∃ u, c.second = some (u, varFor digest loc))) = 0 := by
      simp [hlast]
    rw [h0, Nat.add_zero]
    by_cases hmem : Needed files b (schemaFile prefixes s) f
    · have hm := (hL f).2 hmem
      have : L.countP (fun g => decide (g = f)) = L.count f := by
        unfold List.count; congr; funext g; by_cases hg : g = f <;> simp [hg]
      simp only [hmem, decide_true, if_true]
      rw [this, List.count_eq_one_of_mem hnd hm]
    · have hm : f ∉ L := fun hm => hmem ((hL f).1 hm)
      simp only [hmem, decide_false]
      have : L.countP (fun g => decide (g = f)) = 0 := by
        rw [List.countP_eq_zero]
        intro g hg e
        exact hm (of_decide_eq_true e ▸ hg)
      rw [this]
      rfl

/-- What is in the code of a schema before a piece of it. -/
theorem segment_piece {root : DFile} {seg m1 m2 : List FileCode} {c : FileCode}
    (hs : SegmentOf digest files b parent root seg) (e : seg = m1 ++ c :: m2)
    (hac : ∀ f g, Includes (skeletons files) f g → ¬ Leads (skeletons files) g f) :
    ∃ dir d p, CodeFor digest p b dir d c ∧ ((∃ f, files f = some d ∧ dir = f.dropLast) ∨ (d = root ∧ dir = b ∧
        ∀ g, Needed files b root g → ∃ c' ∈ m1, DocCode digest files b g c')) ∧
      ∀ l g, some l ∈ d.locations → StandsFor dir l g → ∃ c' ∈ m1, DocCode digest files b g c' := by
  obtain ⟨L, cs, last, rfl, h2, h3, h4, h5, h6, h7⟩ := hs
  rcases first_split e with ⟨t, ec⟩ | ⟨t, e1, e2⟩
  · rw [ec] at h5
    obtain ⟨l1, lr, el, a1, a2⟩ := all2_append_right h5
    cases a2 with
    | @cons f _ l2 _ hfc _ =>
    subst el
    obtain ⟨d, loc, u, hd, hcode, _⟩ := hfc
    refine ⟨f.dropLast, d, none, hcode, .inl ⟨f, hd, rfl⟩, fun l g hl hs => ?_⟩
    have hinc : Includes (skeletons files) f g := ⟨_, skel_eq hd, l, hl, hs⟩
    obtain ⟨_, hb⟩ := h4 f (by simp) g hinc
    rcases hb with hb | hb
    · obtain ⟨p, q, s, eb⟩ := hb
      have hg : g ∈ l1 := by
        have eb' : l1 ++ f :: l2 = (p ++ g :: q) ++ f :: s := by rw [eb]; simp
        rcases List.append_eq_append_iff.1 eb' with ⟨t, e1, e2⟩ | ⟨t, e1, e2⟩
        · cases t with
          | nil => simp at e1; rw [← e1]; simp
          | cons y t =>
            injection e2 with e2 e3
            subst e2
            exfalso
            rw [e3] at h2
            have := (List.nodup_append.1 h2).2.1
            simp at this
        · rw [e1]; simp
      exact a1.mem_left hg
    · exact absurd hb (hac f g hinc)
  · cases t with
    | cons z t => cases t <;> simp at e2
    | nil =>
      simp only [List.append_nil, List.nil_append] at e1 e2
      injection e2 with e2 _
      subst e1 e2
      refine ⟨b, root, parent, h6, .inr ⟨rfl, rfl, fun g hg => h5.mem_left ((h3 g).2 hg)⟩, fun l g hl hs => ?_⟩
      exact h5.mem_left ((h3 g).2 ⟨g, ⟨l, hl, hs⟩, .self g⟩)

theorem doc_assigns {g : List Str} {c : FileCode} {n : Str} (h : DocCode digest files b g c) (hn : HasNamespace files g n) :
    c.Assigns (varFor digest n) := by
  obtain ⟨d, loc, u, hd, hcode, _⟩ := h
  obtain ⟨d', hd', hns⟩ := hn
  cases hd.symm.trans hd'
  obtain ⟨ns', e1, _, e2⟩ := hcode.namespaced
  rw [hns] at e1
  injection e1 with e1; subst e1
  exact .inl e2.symm

/-- **C120 (found).** The statement that creates a schema finds the variables of all schemas it mentions, if documents do not lead to each other in a circle,
import namespaces of documents that they import, and each namespace that a schema of the WSDL document imports is that of a schema that comes before it or of
a document that it or a schema before it leads to. -/
theorem C120_found (hw : ∀ s ∈ schemas, Documents base b read files (schemaFile prefixes s))
    (h : wsdlFiles wd urljoin netlocOk digest read prefixes base n parent schemas = .ok segs)
    (hac : ∀ f g, Includes (skeletons files) f g → ¬ Leads (skeletons files) g f)
    (hir : ∀ f d, files f = some d → ImportsRight files f.dropLast d)
    (ha : ∀ before s after, schemas = before ++ s :: after → ∀ m, ImportsNs s m → ThereFor before s after m ∨
      ∃ t g, (t = s ∨ ComesFirst before s after t) ∧ Needed files b (schemaFile prefixes t) g ∧ HasNamespace files g m)
    (limit : Nat) (m1 : List FileCode) (c : FileCode) (m2 : List FileCode) (hm : segs.flatten = m1 ++ c :: m2) (y)
    (hy : execFiles limit [] [] m1 = .ok y) :
    (∃ is, mapI (schemaVar y.2.1) c.module.schema.imports = .ok is) ∧ ∃ js, mapI (schemaVar y.2.1) c.module.schema.includes = .ok js := by
  have hn := wsdlFiles_named hw h
  have hss := wsdlFiles_segments hw h
  obtain ⟨s1, s2, p, q, e1, e2⟩ := flatten_split hm
  rw [e1] at hss
  obtain ⟨o1, o2, ho, a1, a2⟩ := all2_append_right hss
  cases a2 with
  | @cons s _ o2 _ hseg _ =>
  have hsub : ∀ t ∈ o1 ++ s :: o2, t ∈ schemas := fun t ht => takeEarly_sub (imp := valImports) (tgt := valTarget) [] schemas t (by rw [← takeVals, ho]; exact ht)
  obtain ⟨before, after, es, hfirst⟩ := order_split hn ho
  obtain ⟨dir, d, par, hcode, hwhat, hlocs⟩ := segment_piece hseg rfl hac
  obtain ⟨_, v2, _⟩ := execFiles_vars hy
  have inM : ∀ c' ∈ p, c' ∈ m1 := fun c' hc' => by rw [e2]; simp [hc']
  constructor
  · refine mapI_found fun v hv => schemaVar_some ?_
    obtain ⟨o, ho', ns, rfl, rfl⟩ := hcode.imports.mem_right hv
    rcases hwhat with ⟨f, hf, rfl⟩ | ⟨rfl, rfl, hneed⟩
    · obtain ⟨l, g, hl, hs, hns⟩ := hir f d hf ns ho'
      obtain ⟨c', hc', hdoc⟩ := hlocs l g (List.mem_append_right _ hl) hs
      exact v2 c' (inM c' hc') _ (doc_assigns hdoc hns)
    · rcases ha before s after es ns (valImports_iff.1 ho') with ⟨t, ht, htn⟩ | ⟨t, g, ht, hg, hns⟩
      · obtain ⟨seg, hseg', _, cs, last, rfl, _, _, _, _, hlc, _⟩ := a1.mem_left ((hfirst t).2 ht)
        obtain ⟨ns', e3, _, e4⟩ := hlc.namespaced
        have : valTarget t = some ns := valTarget_iff.2 htn
        have e3 : (valTarget t).or parent = some ns' := e3
        rw [this] at e3
        injection e3 with e3; subst e3
        refine v2 last ?_ _ (.inl e4.symm)
        rw [e2]
        exact List.mem_append_left _ (List.mem_flatten.2 ⟨_, hseg', by simp⟩)
      · rcases ht with rfl | ht
        · obtain ⟨c', hc', hdoc⟩ := hneed g hg
          exact v2 c' (inM c' hc') _ (doc_assigns hdoc hns)
        · obtain ⟨seg, hseg', L, cs, last, rfl, _, hL, _, hcs, _⟩ := a1.mem_left ((hfirst t).2 ht)
          obtain ⟨c', hc', hdoc⟩ := hcs.mem_left ((hL g).2 hg)
          refine v2 c' ?_ _ (doc_assigns hdoc hns)
          rw [e2]
          exact List.mem_append_left _ (List.mem_flatten.2 ⟨_, hseg', by simp [hc']⟩)
  · refine mapI_found fun v hv => schemaVar_some ?_
    obtain ⟨o, ho', l, g, loc, rfl, hs, hloc, rfl⟩ := hcode.includes.mem_right hv
    obtain ⟨c', hc', hdoc⟩ := hlocs l g (List.mem_append_left _ ho') hs
    obtain ⟨d'', loc', u, hd'', hcode', hloc', hsec⟩ := hdoc
    rw [calledIn_text hloc hloc']
    exact v2 c' (inM c' hc') _ (.inr ⟨u, hsec⟩)

/-- **C120 (loaded).** If the module can be imported, each namespace that a schema of the WSDL document imports is that of a schema that comes before
it, or of a document that it or a schema before it leads to. -/
theorem C120_loaded (hw : ∀ s ∈ schemas, Documents base b read files (schemaFile prefixes s))
    (h : wsdlFiles wd urljoin netlocOk digest read prefixes base n parent schemas = .ok segs)
    (ht : ∀ s ∈ schemas, ∃ n, HasText s py"targetNamespace" n) (hc : NoClash digest files b schemas) (limit : Nat) (x)
    (hx : execFiles limit [] [] segs.flatten = .ok x) (before : List Val) (s : Val) (after : List Val) (e : schemas = before ++ s :: after) (m : Str)
    (hi : ImportsNs s m) :
    ThereFor before s after m ∨
      ∃ t g, (t = s ∨ ComesFirst before s after t) ∧ Needed files b (schemaFile prefixes t) g ∧ HasNamespace files g m := by
  have hn := wsdlFiles_named hw h
  have hss := wsdlFiles_segments hw h
  obtain ⟨o1, o2, ho, hfirst⟩ := order_place (e ▸ hn)
  rw [← e] at ho
  have hsub : ∀ t ∈ o1 ++ s :: o2, t ∈ schemas := fun t ht => takeEarly_sub (imp := valImports) (tgt := valTarget) [] schemas t (by rw [← takeVals, ho]; exact ht)
  rw [ho] at hss
  obtain ⟨g1, g2, eg, a1, a2⟩ := all2_append_left hss
  cases a2 with
  | @cons _ seg _ g2 hseg _ =>
  obtain ⟨L, cs, last, rfl, _, hL, _, hcs, hlc, _⟩ := hseg
  have hfl : segs.flatten = (g1.flatten ++ cs) ++ last :: g2.flatten := by rw [eg]; simp
  rw [hfl] at hx
  obtain ⟨y, z, hy, hz, _⟩ := execFiles_append hx
  simp only [execFiles] at hz
  obtain ⟨r1, hr1, _⟩ := bindI hz
  obtain ⟨is, js, k1, _⟩ := execFile_ok hr1
  obtain ⟨v, hv, ns, e1, rfl⟩ := hlc.imports.mem_left (a := some m) (valImports_iff.2 hi)
  injection e1 with e1; subst e1
  obtain ⟨sv, hsv⟩ := mapI_each k1 _ hv
  have hm : NamespaceHere files schemas m := .inl ⟨s, hsub s (by simp), .inr hi⟩
  have doc : ∀ {g c'}, DocCode digest files b g c' → c'.Assigns (varFor digest m) → HasNamespace files g m := by
    rintro g c' ⟨d, loc', u, hd, hcode, hloc, hsec⟩ (ha | ⟨u', ha⟩)
    · obtain ⟨ns', e3, _, hv'⟩ := hcode.namespaced
      rw [Option.or_none] at e3
      rw [hv'] at ha
      have := hc.namespaces m ns' hm (.inr ⟨g, d, hd, e3⟩) (varFor_inj ha)
      subst this
      exact ⟨d, hd, e3⟩
    · rw [hsec] at ha
      injection ha with ha
      injection ha with _ ha
      exact absurd (varFor_inj ha) (hc.both g loc' m (by rw [hd]; rfl) hloc hm)
  rcases (execFiles_vars hy).1 _ (schemaVar_ok hsv) with h | ⟨c', hc', ha, _⟩
  · cases h
  · rcases List.mem_append.1 hc' with hc' | hc'
    · obtain ⟨seg', hseg', hin⟩ := List.mem_flatten.1 hc'
      obtain ⟨t, hto, L', cs', last', rfl, _, hL', _, hcs', hlc', hsec'⟩ := a1.mem_right hseg'
      rcases List.mem_append.1 hin with hin | hin
      · obtain ⟨g, hg, hdoc⟩ := hcs'.mem_right hin
        exact .inr ⟨t, g, .inr ((hfirst t).1 hto), (hL' g).1 hg, doc hdoc ha⟩
      · cases List.mem_singleton.1 hin
        rcases ha with ha | ⟨u, ha⟩
        · obtain ⟨n', hn'⟩ := ht t (hsub t (by simp [hto]))
          obtain ⟨ns', e3, _, hv'⟩ := hlc'.namespaced
          have e3 : (valTarget t).or parent = some ns' := e3
          rw [valTarget_iff.2 hn'] at e3
          injection e3 with e3; subst e3
          rw [hv'] at ha
          have := hc.namespaces m n' hm (.inl ⟨t, hsub t (by simp [hto]), .inl hn'⟩) (varFor_inj ha)
          subst this
          exact .inl ⟨t, (hfirst t).1 hto, hn'⟩
        · rw [hsec'] at ha; cases ha
    · obtain ⟨g, hg, hdoc⟩ := hcs.mem_right hc'
      exact .inr ⟨s, g, .inl rfl, (hL g).1 hg, doc hdoc ha⟩

/-- **C120 (outside).** A schema of the WSDL document that imports another one after it, which in turn imports a namespace from an XSD document, makes the
module impossible to import: `reorder_schemas` counts only the namespaces of schemas in the WSDL document. -/
theorem C120_outside {before between after : List Val} {s t : Val} (e : schemas = before ++ s :: (between ++ t :: after))
    (hw : ∀ s ∈ schemas, Documents base b read files (schemaFile prefixes s))
    (h : wsdlFiles wd urljoin netlocOk digest read prefixes base n parent schemas = .ok segs)
    (ht : ∀ s ∈ schemas, ∃ n, HasText s py"targetNamespace" n) (hc : NoClash digest files b schemas) (m m' : Str) (hi : ImportsNs s m)
    (ho : ∀ u ∈ before ++ s :: (between ++ after), ¬ HasText u py"targetNamespace" m) (hf : ∀ g, ¬ HasNamespace files g m) (hi' : ImportsNs t m')
    (ho' : ∀ u ∈ schemas, ¬ HasText u py"targetNamespace" m') (limit : Nat) (x) : execFiles limit [] [] segs.flatten ≠ .ok x := by
  intro hx
  rcases C120_loaded hw h ht hc limit x hx before s _ e m hi with h | ⟨_, g, _, _, h⟩
  · refine not_there m m' ho hi' (fun u hu => ho' u ?_) h
    rw [e]
    simp only [List.mem_append, List.mem_cons] at hu ⊢
    rcases hu with h | h | h <;> simp [h]
  · exact hf g h

end

namespace ExWsdlFiles

/-- A schema that imports namespaces from documents. -/
def schema (ns : Str) (imports : List (Str × Val)) : Val := Ex.obj [(py"targetNamespace", Ex.txt ns),
  (py"imports", .list true (imports.map fun n => Ex.obj [(py"namespace", Ex.txt n.1), (py"schemaLocation", n.2)]))]

def b : Val := schema py"urn:p" [(py"urn:b", Ex.txt py"sub/b.xsd")]
def both : Val := schema py"urn:q" [(py"urn:b", Ex.txt py"./sub/b.xsd"), (py"urn:p", Val.none)]

def code (schemas : List Val) : Except Exn (List (List FileCode)) :=
  wsdlFiles py"/" (fun _ l => l) (fun _ => true) id (ExFiles.read ExFiles.c) [some py"xs"] py"/w" 7 none schemas

/-- Two schemas import sub/b.xsd, which includes c.xsd: the code of both documents is there twice. -/
example : (code [b, both]).map (fun l => l.map fun s => s.map fun f => (f.module.schema.targetNamespace, f.second.map (·.2))) =
    .ok [[(py"urn:c", some py"Schema_c.xsd"), (py"urn:b", some py"Schema_sub/b.xsd"), (py"urn:p", none)],
      [(py"urn:c", some py"Schema_c.xsd"), (py"urn:b", some py"Schema_sub/b.xsd"), (py"urn:q", none)]] := by decide +kernel

def loaded (schemas : List Val) : Except ImportErr (List (Str × List Str)) :=
  match wsdlFiles py"/" (fun _ l => l) (fun _ => true) ExFiles.md5 (ExFiles.read ExFiles.c) [some py"xs"] py"/w" 7 none schemas with
  | .ok l => (execFiles 10 [] [] l.flatten).map fun x => x.2.2.map fun g => (g.targetNamespace, g.imports.map (·.1))
  | .error _ => .error .unmodelled

/-- The module can be imported in this order, but not in the other one. -/
example : (match loaded [b, both] with | .ok l => l | .error _ => []) = [(py"urn:c", []), (py"urn:b", []), (py"urn:p", [py"urn:b"]), (py"urn:c", []), (py"urn:b", []),
    (py"urn:q", [py"urn:b", py"urn:p"])] := by decide +kernel
example : (match loaded [both, b] with | .error (.raised .nameError) => true | _ => false) = true := by decide +kernel

end ExWsdlFiles

end Soapfish
