import Verif.Spec.Files
import Verif.Props.Includes
import Verif.RunFields
import Verif.DescribedExec
/-
Code for XSD documents that include or import each other (C117).
-/
namespace Soapfish

/-! ### Locations -/

theorem shortWay_rel : ∀ (b f : List Str), ShortWay b f (relParts b f)
  | [], f => by
    have : relParts [] f = List.replicate ([] : List Str).length py".." ++ f := by simp [relParts, commonLen]
    rw [this]; exact .up (by simp)
  | x :: b, [] => by
    have : relParts (x :: b) [] = List.replicate (x :: b).length py".." ++ [] := by simp [relParts, commonLen]
    rw [this]; exact .up (by simp)
  | x :: b, y :: f => by
    by_cases h : x = y
    · subst h
      have : relParts (x :: b) (x :: f) = relParts b f := by simp [relParts, commonLen]
      rw [this]; exact .down (shortWay_rel b f)
    · have : relParts (x :: b) (y :: f) = List.replicate (x :: b).length py".." ++ (y :: f) := by simp [relParts, commonLen, h]
      rw [this]; exact .up (by simp; exact fun e => h e.symm)

theorem shortWay_unique {b f p q : List Str} (h : ShortWay b f p) (h' : ShortWay b f q) : p = q := by
  induction h with
  | up h =>
    cases h' with
    | up => rfl
    | down => exact absurd rfl (h _ rfl)
  | down h ih =>
    cases h' with
    | up h' => exact absurd rfl (h' _ rfl)
    | down h' => exact ih h'

theorem location_iff {b f : List Str} {loc : Str} (hf : ∀ x ∈ f, Proper x) (hnp : ¬ f <+: b) :
    CalledIn b f loc ↔ loc = relText b f := by
  have hne : relParts b f ≠ [] := by
    intro e
    have hl := relParts_leads (d := b) hf
    rw [e] at hl
    simp only [List.foldl_nil] at hl
    exact hnp (hl ▸ List.prefix_refl _)
  constructor
  · rintro ⟨way, h1, h2⟩
    rw [shortWay_unique h1 (shortWay_rel b f)] at h2
    rw [relText, if_neg hne, h2.2.2]
  · rintro rfl
    refine ⟨_, shortWay_rel b f, hne, fun x hx => (relParts_ne hf x hx).2, ?_⟩
    rw [relText, if_neg hne]

/-! ### Generation -/

section
variable {wd base : Str} {urljoin : Str → Str → Str} {netlocOk : Str → Bool} {digest : Str → Str}
  {read : Str → Except Exn DFile} {files : List Str → Option DFile}

/-- The rewritten locations. -/
def rewritten (base cwd : Str) (ls : List (Option Str)) : List (Option Str) :=
  ls.map fun o => o.map fun l => relText (rooted base) (rooted (pathJoin cwd l))

theorem rewritePaths_exact {cwd : Str} (hb : Directory base) (hc : Directory cwd) (hcu : ¬ IsUrl cwd)
    {ls : List (Option Str)} (h : ∀ l, some l ∈ ls → ¬ IsUrl l) :
    rewritePaths wd urljoin cwd base ls = .ok (rewritten base cwd ls) := by
  induction ls with
  | nil => rfl
  | cons o ls ih =>
    have ih := ih fun l hl => h l (by simp [hl])
    unfold rewritePaths
    cases o with
    | none => rw [ih]; rfl
    | some l =>
      rw [rewrite_local urljoin hb.1 hc.1 hcu (h l (by simp)), ih]
      rfl

theorem rewritten_targets {cwd : Str} (hc : Absolute cwd) (ls : List (Option Str)) :
    (rewritten base cwd ls).filterMap id = (targets (rooted cwd) ls).map (relText (rooted base)) := by
  induction ls with
  | nil => rfl
  | cons o ls ih =>
    cases o with
    | none => exact ih
    | some l =>
      have := stands_iff.1 (rooted_join (path := l) hc).2
      unfold targets rewritten at ih ⊢
      simp only [List.map_cons, Option.map_some, List.filterMap_cons, id, List.map_cons]
      rw [this]
      exact congrArg _ ih

/-- What the traversal relies on. -/
structure FilesWorld (base : Str) (read : Str → Except Exn DFile) (files : List Str → Option DFile) : Prop where
  dir : Directory base
  notUrl : ¬ IsUrl base
  read : ∀ p f doc, Absolute p → StandsFor [] p f → files f = some doc → read p = .ok doc
  names : ∀ f, (files f).isSome → ∀ x ∈ f, Proper x
  good : ∀ f d, files f = some d → GoodLocations (skeletons files) (rooted base) f.dropLast ⟨d.locations, 0⟩

theorem skel_some {f : List Str} : (skeletons files f).isSome ↔ (files f).isSome := by
  unfold skeletons; cases files f <;> simp

theorem skel_eq {f : List Str} {d : DFile} (h : files f = some d) : skeletons files f = some ⟨d.locations, 0⟩ := by
  unfold skeletons; rw [h]; rfl

/-- The code of the files one after the other. -/
inductive Rendered (netlocOk : Str → Bool) (digest : Str → Str) (files : List Str → Option DFile) (base : Str) :
    List Str → List (List Str) → List FileCode → List Str → Prop where
  | nil {t} : Rendered netlocOk digest files base t [] [] t
  | cons {t f A d cts cwd m t' ms t''} : files f = some d → Absolute cwd → rooted cwd = f.dropLast →
      fileCode netlocOk digest t (relText (rooted base) f) (rewritten base cwd d.locations) d.prefixes
        { d.schema with complexTypes := cts } = .ok (m, t') →
      Rendered netlocOk digest files base t' A ms t'' → Rendered netlocOk digest files base t (f :: A) (m :: ms) t''

theorem Rendered.append {t t' t'' : List Str} {A B : List (List Str)} {ms ns : List FileCode}
    (h : Rendered netlocOk digest files base t A ms t') (h' : Rendered netlocOk digest files base t' B ns t'') :
    Rendered netlocOk digest files base t (A ++ B) (ms ++ ns) t'' := by
  induction h with
  | nil => exact h'
  | cons h1 h2 h3 h4 _ ih => exact .cons h1 h2 h3 h4 (ih h')

theorem files_loop (G : FilesWorld base read files) {n : Nat}
    (nested : ∀ (f : List Str) (d : DFile) (cwd : Str) (Q : List (List Str)) (types : List Str) r, files f = some d → f ∉ Q → Q.Nodup →
      (∀ g ∈ Q, (files g).isSome) → Directory cwd → ¬ IsUrl cwd → rooted cwd = f.dropLast →
      filesCode wd urljoin netlocOk digest read base n none cwd (Q.map (relText (rooted base))) types (relText (rooted base) f) d = .ok r →
      ∃ A P, r.2.1 = (Q ++ P).map (relText (rooted base)) ∧ Added (skeletons files) [f] Q A P ∧
        Rendered netlocOk digest files base types A r.1 r.2.2)
    {gs : List (List Str)} {ls : List (Option Str)} (hls : ls.filterMap id = gs.map (relText (rooted base)))
    (hgs : ∀ g ∈ gs, (files g).isSome ∧ ¬ g <+: rooted base) (out : List FileCode) (Q : List (List Str)) (types : List Str) (hQ : Q.Nodup)
    (hQf : ∀ g ∈ Q, (files g).isSome) r
    (hr0 : filesLoop wd read base (filesCode wd urljoin netlocOk digest read base n none) ls out (Q.map (relText (rooted base))) types = .ok r) :
    ∃ A P ms, r.1 = out ++ ms ∧ r.2.1 = (Q ++ P).map (relText (rooted base)) ∧ Added (skeletons files) gs Q A P ∧
      Rendered netlocOk digest files base types A ms r.2.2 := by
  induction ls generalizing gs out Q types with
  | nil =>
    have : gs = [] := by
      cases gs with
      | nil => rfl
      | cons g gs => simp at hls
    subst this
    simp only [filesLoop] at hr0
    injection hr0 with hr0; subst hr0
    exact ⟨[], [], [], by simp, by simp, ⟨.refl _, by simpa using hQ, by simp, by simp, by simp⟩, .nil⟩
  | cons o ls ih =>
    cases o with
    | none => exact ih hls hgs out Q types hQ hQf hr0
    | some l =>
      cases gs with
      | nil => simp at hls
      | cons g gs =>
        simp only [List.filterMap_cons, id, List.map_cons, List.cons.injEq] at hls
        obtain ⟨rfl, hls⟩ := hls
        obtain ⟨hgf, hgp⟩ := hgs g (by simp)
        have hpr := G.names g hgf
        obtain ⟨doc, hdoc⟩ := Option.isSome_iff_exists.1 hgf
        obtain ⟨p, dir, hr, hpa, hpr', hd, hdu, hdr⟩ := resolve_rewritten (wd := wd) G.dir G.notUrl hpr hgp
        have hread := G.read p g doc hpa (hpr' ▸ stands_abs hpa []) hdoc
        unfold filesLoop at hr0
        rw [if_neg (relText_ne hpr), hr] at hr0
        simp only [Except.bind, hread] at hr0
        have hmem := mem_texts (b := rooted base) (fun f hf => G.names f (hQf f hf)) hpr
        by_cases hgQ : g ∈ Q
        · rw [if_pos ⟨relText_ne hpr, hmem.2 hgQ⟩] at hr0
          obtain ⟨A, P, ms, e0, e, ad, hre⟩ := ih hls (fun g hg => hgs g (by simp [hg])) out Q types hQ hQf hr0
          refine ⟨A, P, ms, e0, e, ⟨ad.perm, ad.nodup, ?_, ?_, ad.closed⟩, hre⟩
          · intro x hx
            rcases List.mem_cons.1 hx with rfl | hx
            · simp [hgQ]
            · exact ad.roots x hx
          · intro x hx
            obtain ⟨g', hg', hl⟩ := ad.from_ x hx
            exact ⟨g', by simp [hg'], hl⟩
        · rw [if_neg fun h => hgQ (hmem.1 h.2)] at hr0
          cases hne : filesCode wd urljoin netlocOk digest read base n none dir (Q.map (relText (rooted base))) types (relText (rooted base) g) doc with
          | error e => rw [hne] at hr0; cases hr0
          | ok r1 =>
          rw [hne] at hr0
          simp only at hr0
          obtain ⟨A1, P1, e1, ad1, hre1⟩ := nested g doc dir Q types r1 hdoc hgQ hQ hQf hd hdu hdr hne
          rw [e1] at hr0
          have hQ' : ∀ g ∈ Q ++ P1, (files g).isSome := by
            intro x hx
            rcases List.mem_append.1 hx with hx | hx
            · exact hQf x hx
            · obtain ⟨g', hg', hl⟩ := ad1.from_ x (ad1.perm.subset hx)
              simp only [List.mem_singleton] at hg'
              subst hg'
              cases hl with
              | self => exact hgf
              | via _ h =>
                obtain ⟨d', hd', l', hl', hs⟩ := h
                unfold skeletons at hd'
                obtain ⟨d0, hd0, rfl⟩ := Option.map_eq_some_iff.1 hd'
                exact skel_some.1 (((G.good _ d0 hd0) l' hl').2 _ hs |>.1)
          obtain ⟨A2, P2, ms, e2, e2', ad2, hre2⟩ := ih hls (fun g hg => hgs g (by simp [hg])) (out ++ r1.1) (Q ++ P1) r1.2.2 ad1.nodup hQ' hr0
          refine ⟨A1 ++ A2, P1 ++ P2, r1.1 ++ ms, ?_, ?_, ad1.append ad2, hre1.append hre2⟩
          · rw [e2]; simp
          · rw [e2']; simp

theorem filesCode_ok {n : Nat} {parent : Option Str} {cwd location : Str} {known types : List Str} {d : DFile} {r}
    (h : filesCode wd urljoin netlocOk digest read base (n + 1) parent cwd known types location d = .ok r) :
    ∃ ls cts m c, rewritePaths wd urljoin cwd base d.locations = .ok ls ∧
      filesLoop wd read base (filesCode wd urljoin netlocOk digest read base n none) ls []
        (if location = [] then known else known ++ [location]) types = .ok m ∧
      fileCode netlocOk digest m.2.2 location ls d.prefixes
        { d.schema with complexTypes := cts, targetNamespace := d.schema.targetNamespace.or parent } = .ok c ∧
      r = (m.1 ++ [c.1], m.2.1, c.2) := by
  unfold filesCode at h
  cases h1 : rewritePaths wd urljoin cwd base d.locations with
  | error e => rw [h1] at h; cases h
  | ok ls =>
  rw [h1] at h
  simp only [Except.bind] at h
  cases h2 : reorderComplex n d.schema.complexTypes with
  | error e => rw [h2] at h; cases h
  | ok cts =>
  rw [h2] at h
  simp only at h
  cases h3 : filesLoop wd read base (filesCode wd urljoin netlocOk digest read base n none) ls []
        (if location = [] then known else known ++ [location]) types with
  | error e => rw [h3] at h; cases h
  | ok m =>
  rw [h3] at h
  simp only at h
  cases h4 : fileCode netlocOk digest m.2.2 location ls d.prefixes
        { d.schema with complexTypes := cts, targetNamespace := d.schema.targetNamespace.or parent } with
  | error e => rw [h4] at h; cases h
  | ok c =>
  rw [h4] at h
  injection h with h
  exact ⟨ls, cts, m, c, rfl, h3, h4, h.symm⟩

theorem files_file (G : FilesWorld base read files) {n : Nat}
    (f : List Str) (d : DFile) (cwd : Str) (Q : List (List Str)) (types : List Str) r (hf : files f = some d) (hfQ : f ∉ Q) (hQ : Q.Nodup)
    (hQf : ∀ g ∈ Q, (files g).isSome) (hc : Directory cwd) (hcu : ¬ IsUrl cwd) (hcr : rooted cwd = f.dropLast)
    (hr0 : filesCode wd urljoin netlocOk digest read base n none cwd (Q.map (relText (rooted base))) types (relText (rooted base) f) d = .ok r) :
    ∃ A P, r.2.1 = (Q ++ P).map (relText (rooted base)) ∧ Added (skeletons files) [f] Q A P ∧
        Rendered netlocOk digest files base types A r.1 r.2.2 := by
  induction n generalizing f d cwd Q types r with
  | zero => cases hr0
  | succ n ih =>
    have hpr := G.names f (by rw [hf]; rfl)
    have hgood := G.good f d hf
    obtain ⟨ls, cts, m, c, h1, h2, h3, rfl⟩ := filesCode_ok hr0
    rw [rewritePaths_exact G.dir hc hcu fun l hl => (hgood l hl).1] at h1
    injection h1 with h1; subst h1
    rw [if_neg (relText_ne hpr)] at h2
    have hmem : ∀ g, g ∈ targets f.dropLast d.locations ↔ Includes (skeletons files) f g := by
      intro g
      have := targets_mem (d := f.dropLast) (g := g) (doc := ⟨d.locations, 0⟩)
      rw [this]
      constructor
      · exact fun h => ⟨_, skel_eq hf, h⟩
      · rintro ⟨d', hd', h⟩
        rw [skel_eq hf] at hd'
        injection hd' with hd'
        exact hd' ▸ h
    have hgs : ∀ g ∈ targets f.dropLast d.locations, (files g).isSome ∧ ¬ g <+: rooted base := by
      intro g hg
      obtain ⟨l, hl, hs⟩ := (targets_mem (doc := ⟨d.locations, 0⟩)).1 hg
      have := (hgood l hl).2 g hs
      exact ⟨skel_some.1 this.1, this.2⟩
    have hQ1 : (Q ++ [f]).Nodup := by
      rw [List.nodup_append]
      refine ⟨hQ, by simp, ?_⟩
      intro a ha b hb
      simp only [List.mem_singleton] at hb
      rintro rfl
      exact hfQ (hb ▸ ha)
    have hQf1 : ∀ g ∈ Q ++ [f], (files g).isSome := by
      intro g hg
      rcases List.mem_append.1 hg with hg | hg
      · exact hQf g hg
      · simp only [List.mem_singleton] at hg
        rw [hg, hf]
        rfl
    have he := rewritten_targets (base := base) hc.1 d.locations
    rw [hcr] at he
    have : Q.map (relText (rooted base)) ++ [relText (rooted base) f] = (Q ++ [f]).map (relText (rooted base)) := by simp
    rw [this] at h2
    obtain ⟨A, P, ms, e1, e2, ad, hre⟩ := files_loop G (fun f d cwd Q types r => ih f d cwd Q types r) he hgs [] (Q ++ [f]) types hQ1 hQf1 m h2
    simp only [List.nil_append] at e1
    simp only [Option.or_none] at h3
    refine ⟨A ++ [f], f :: P, ?_, ⟨?_, ?_, ?_, ?_, ?_⟩, ?_⟩
    · simp only [e2]; simp
    · exact (ad.perm.cons f).trans (List.perm_append_singleton f A).symm
    · have := ad.nodup
      simpa using this
    · simp
    · intro x hx
      refine ⟨f, by simp, ?_⟩
      rcases List.mem_append.1 hx with hx | hx
      · obtain ⟨g, hg, hl⟩ := ad.from_ x hx
        exact Leads.trans (.via (.self f) ((hmem g).1 hg)) hl
      · simp only [List.mem_singleton] at hx
        rw [hx]
        exact .self f
    · intro x hx y hy
      have eq : Q ++ f :: P = Q ++ [f] ++ P := by simp
      rw [eq]
      rcases List.mem_append.1 hx with hxA | hx
      · obtain ⟨a, b⟩ := ad.closed x hxA y hy
        refine ⟨a, ?_⟩
        rcases b with b | b | b
        · rcases List.mem_append.1 b with b | b
          · exact .inl b
          · simp only [List.mem_singleton] at b
            subst b
            obtain ⟨g, hg, hl⟩ := ad.from_ x hxA
            exact .inr (.inr (Leads.trans (.via (.self _) ((hmem g).1 hg)) hl))
        · exact .inr (.inl b.left)
        · exact .inr (.inr b)
      · simp only [List.mem_singleton] at hx
        subst hx
        have := ad.roots y ((hmem y).2 hy)
        refine ⟨this, ?_⟩
        rcases List.mem_append.1 this with h | h
        · rcases List.mem_append.1 h with h | h
          · exact .inl h
          · simp only [List.mem_singleton] at h
            subst h
            exact .inr (.inr (.self _))
        · exact .inr (.inl (before_append (ad.perm.subset h) (by simp)))
    · rw [e1]
      exact hre.append (.cons hf hc.1 hcr h3 .nil)

end

/-! ### The code of one document -/

theorem schemaCode_var {prefixes : List (Option Str)} {digest : Str → Str} {types : List Str} {d : DSchema} {r}
    (h : schemaCode prefixes digest types d = .ok r) : ∃ known, schemaStatement prefixes digest known d = .ok r.1.schema := by
  unfold schemaCode at h
  obtain ⟨_, _, h⟩ := bind_eq_ok.1 h
  obtain ⟨_, _, h⟩ := bind_eq_ok.1 h
  obtain ⟨_, _, h⟩ := bind_eq_ok.1 h
  obtain ⟨c, _, h⟩ := bind_eq_ok.1 h
  obtain ⟨_, _, h⟩ := bind_eq_ok.1 h
  obtain ⟨s, hs, h⟩ := bind_eq_ok.1 h
  injection h with h; subst h
  exact ⟨_, hs⟩

theorem schemaName_some {digest : Str → Str} {o : Option Str} {v : Str} (h : schemaName digest o = .ok v) :
    ∃ s, o = some s ∧ v = varFor digest s := by
  cases o with
  | none => cases h
  | some s => injection h with h; exact ⟨s, rfl, h.symm⟩

theorem fileCode_ok {netlocOk : Str → Bool} {digest : Str → Str} {types : List Str} {location : Str} {ls prefixes : List (Option Str)}
    {d : DSchema} {c} (h : fileCode netlocOk digest types location ls prefixes d = .ok c) :
    (∃ ns, d.targetNamespace = some ns ∧ c.1.module.schema.targetNamespace = ns ∧ c.1.module.schema.var = varFor digest ns) ∧
    All2 (fun o v => ∃ ns, o = some ns ∧ v = varFor digest ns) d.imports c.1.module.schema.imports ∧
    All2 (fun o v => ∃ l, o = some l ∧ v = varFor digest l) (ls.take d.includes.length) c.1.module.schema.includes ∧
    (location = [] → c.1.second = none) ∧ (location ≠ [] → ∃ u, c.1.second = some (u, varFor digest location)) := by
  unfold fileCode at h
  obtain ⟨r, hr, h⟩ := bind_eq_ok.1 h
  obtain ⟨known, hs⟩ := schemaCode_var hr
  have key : (∃ ns, d.targetNamespace = some ns ∧ r.1.schema.targetNamespace = ns ∧ r.1.schema.var = varFor digest ns) ∧
      All2 (fun o v => ∃ ns, o = some ns ∧ v = varFor digest ns) d.imports r.1.schema.imports ∧
      All2 (fun o v => ∃ l, o = some l ∧ v = varFor digest l) (ls.take d.includes.length) r.1.schema.includes := by
    unfold schemaStatement at hs
    obtain ⟨v, h1, hs⟩ := bind_eq_ok.1 hs
    obtain ⟨is, h2, hs⟩ := bind_eq_ok.1 hs
    obtain ⟨ns, h3, hs⟩ := bind_eq_ok.1 hs
    obtain ⟨_, _, hs⟩ := bind_eq_ok.1 hs
    obtain ⟨_, _, hs⟩ := bind_eq_ok.1 hs
    obtain ⟨_, _, hs⟩ := bind_eq_ok.1 hs
    obtain ⟨_, _, hs⟩ := bind_eq_ok.1 hs
    obtain ⟨_, _, hs⟩ := bind_eq_ok.1 hs
    injection hs with hs
    rw [← hs]
    obtain ⟨t, ht, hv⟩ := schemaName_some h1
    refine ⟨⟨t, ht, ?_, hv⟩, (mapE_all2 h2).imp fun _ _ h => schemaName_some h, (mapE_all2 h3).imp fun _ _ h => schemaName_some h⟩
    simp only at ht
    simp only [ht, textOf, Option.getD]
  split at h
  · rename_i hl
    injection h with h; subst h
    exact ⟨key.1, key.2.1, key.2.2, fun _ => rfl, fun h => absurd hl h⟩
  · rename_i hl
    obtain ⟨u, _, h⟩ := bind_eq_ok.1 h
    obtain ⟨w, hw, h⟩ := bind_eq_ok.1 h
    injection h with h; subst h
    injection hw with hw
    exact ⟨key.1, key.2.1, key.2.2, fun h => absurd h hl, fun _ => ⟨u, by rw [← hw]; rfl⟩⟩

theorem all2_mapped_left {α β γ : Type} {R : β → γ → Prop} {f : α → β} : ∀ {l : List α} {m : List γ},
    All2 R (l.map f) m → All2 (fun a c => R (f a) c) l m
  | [], _, h => by cases h; exact .nil
  | _ :: _, _, h => by cases h with | cons h1 h2 => exact .cons h1 (all2_mapped_left h2)

theorem codeFor_of {base : Str} {netlocOk : Str → Bool} {digest : Str → Str} {files : List Str → Option DFile} {types : List Str}
    {location cwd : Str} {parent : Option Str} {d : DFile} {cts : List DComplex} {c} (hc : Absolute cwd)
    (hg : GoodLocations (skeletons files) (rooted base) (rooted cwd) ⟨d.locations, 0⟩) (hcp : ∀ x ∈ rooted cwd, Proper x)
    (h : fileCode netlocOk digest types location (rewritten base cwd d.locations) d.prefixes
      { d.schema with complexTypes := cts, targetNamespace := d.schema.targetNamespace.or parent } = .ok c) :
    CodeFor digest parent (rooted base) (rooted cwd) d c.1 ∧ (location = [] → c.1.second = none) ∧
      (location ≠ [] → ∃ u, c.1.second = some (u, varFor digest location)) := by
  obtain ⟨h1, h2, h3, h4, h5⟩ := fileCode_ok h
  refine ⟨⟨h1, h2, ?_⟩, h4, h5⟩
  have e : (rewritten base cwd d.locations).take d.schema.includes.length = rewritten base cwd d.schema.includes := by
    unfold rewritten DFile.locations
    rw [List.map_append, List.take_append_of_le_length (by simp), List.take_of_length_le (by simp)]
  rw [e] at h3
  refine (all2_mapped_left h3).imp_mem fun o ho v hv hov => ?_
  obtain ⟨l, hl, rfl⟩ := hov
  obtain ⟨l0, rfl, rfl⟩ := Option.map_eq_some_iff.1 hl
  have hs := (rooted_join (path := l0) hc).2
  have hloc : some l0 ∈ d.locations := List.mem_append_left _ ho
  have := (hg l0 hloc).2 _ hs
  exact ⟨l0, _, _, rfl, hs, (location_iff (stands_proper hcp hs) this.2).2 rfl, rfl⟩

/-! ### C117 -/

section
variable {wd base : Str} {b : List Str} {urljoin : Str → Str → Str} {netlocOk : Str → Bool} {digest : Str → Str}
  {read : Str → Except Exn DFile} {files : List Str → Option DFile} {root : DFile}

theorem Documents.world (hw : Documents base b read files root) : b = rooted base ∧ FilesWorld base read files := by
  have hb := rooted_of_stands hw.dir.1 hw.here
  exact ⟨hb, hw.dir, hw.notUrl, hw.read, hw.names, fun f d h => hb ▸ hw.good f d h⟩

theorem rendered_code (G : FilesWorld base read files) {t t' : List Str} {A : List (List Str)} {ms : List FileCode}
    (hA : ∀ f ∈ A, ¬ f <+: rooted base) (h : Rendered netlocOk digest files base t A ms t') :
    All2 (fun f c => ∃ d loc u, files f = some d ∧ CodeFor digest none (rooted base) f.dropLast d c ∧
      CalledIn (rooted base) f loc ∧ c.second = some (u, varFor digest loc)) A ms := by
  induction h with
  | nil => exact .nil
  | @cons t f A d cts cwd m t' ms t'' h1 h2 h3 h4 _ ih =>
    have hpr := G.names f (by rw [h1]; rfl)
    have hg := G.good f d h1
    rw [← h3] at hg
    have := codeFor_of (base := base) (parent := none) (cts := cts) h2 hg (by rw [h3]; exact fun x hx => hpr x (List.mem_of_mem_dropLast hx))
      (by rw [Option.or_none]; exact h4)
    obtain ⟨k1, _, k3⟩ := this
    obtain ⟨u, hu⟩ := k3 (relText_ne hpr)
    rw [h3] at k1
    exact .cons ⟨d, _, u, h1, k1, (location_iff hpr (hA f (by simp))).2 rfl, hu⟩ (ih fun f hf => hA f (by simp [hf]))

/-- **C117 (code).** What is generated for a document that includes or imports others, when it succeeds: first the code of the
documents it leads to, each once, in an order in which every document follows those it refers to, if they do not lead back to it; then the code of the
document itself.  The schema of each document is assigned to a variable named after its target namespace, which imports refer to, and
then, but for the root document, to a second one named after its location, which includes refer to. -/
theorem C117_code (hw : Documents base b read files root) (n : Nat) (parent : Option Str) (r)
    (h : filesCode wd urljoin netlocOk digest read base n parent base [] [] [] root = .ok r) :
    ∃ L cs last, r.1 = cs ++ [last] ∧ L.Nodup ∧ (∀ f, f ∈ L ↔ Needed files b root f) ∧
      (∀ f ∈ L, ∀ g, Includes (skeletons files) f g → g ∈ L ∧ (Before L g f ∨ Leads (skeletons files) g f)) ∧
      All2 (fun f c => ∃ d loc u, files f = some d ∧ CodeFor digest none b f.dropLast d c ∧
        CalledIn b f loc ∧ c.second = some (u, varFor digest loc)) L cs ∧
      CodeFor digest parent b b root last ∧ last.second = none := by
  obtain ⟨rfl, G⟩ := hw.world
  cases n with
  | zero => cases h
  | succ n =>
    obtain ⟨ls, cts, m, c, h1, h2, h3, rfl⟩ := filesCode_ok h
    rw [rewritePaths_exact G.dir G.dir G.notUrl fun l hl => (hw.root l hl).1] at h1
    injection h1 with h1; subst h1
    have hgs : ∀ g ∈ targets (rooted base) root.locations, (files g).isSome ∧ ¬ g <+: rooted base := by
      intro g hg
      obtain ⟨l, hl, hs⟩ := (targets_mem (doc := ⟨root.locations, 0⟩)).1 hg
      have := (hw.root l hl).2 g hs
      exact ⟨skel_some.1 this.1, this.2⟩
    obtain ⟨A, P, ms, e1, e2, ad, hre⟩ := files_loop G (fun f d cwd Q types r => files_file G f d cwd Q types r)
      (rewritten_targets G.dir.1 root.locations) hgs [] [] [] (by simp) (by simp) m h2
    have hA : ∀ f ∈ A, ¬ f <+: rooted base := by
      intro f hf
      obtain ⟨g, hg, hl⟩ := ad.from_ f hf
      cases hl with
      | self => exact (hgs _ hg).2
      | via _ h =>
        obtain ⟨d', hd', l', hl', hs⟩ := h
        unfold skeletons at hd'
        obtain ⟨d0, hd0, rfl⟩ := Option.map_eq_some_iff.1 hd'
        exact ((G.good _ d0 hd0) l' hl').2 _ hs |>.2
    obtain ⟨k1, k2, _⟩ := codeFor_of (base := base) (files := files) G.dir.1 hw.root (rooted_proper base) h3
    refine ⟨A, ms, c.1, by rw [e1]; rfl, (ad.perm.nodup_iff).1 (by simpa using ad.nodup), ?_, ?_, rendered_code G hA hre, k1, k2 rfl⟩
    · intro f
      constructor
      · intro hf
        obtain ⟨g, hg, hl⟩ := ad.from_ f hf
        exact ⟨g, (targets_mem (doc := ⟨root.locations, 0⟩)).1 hg, hl⟩
      · rintro ⟨g, hg, hl⟩
        induction hl with
        | self =>
          have := ad.roots _ ((targets_mem (doc := ⟨root.locations, 0⟩)).2 hg)
          exact ad.perm.subset (by simpa using this)
        | via _ h ih =>
          have := (ad.closed _ ih _ h).1
          exact ad.perm.subset (by simpa using this)
    · intro f hf g hg
      obtain ⟨h1, h2⟩ := ad.closed f hf g hg
      refine ⟨ad.perm.subset (by simpa using h1), ?_⟩
      rcases h2 with h2 | h2
      · simp at h2
      · exact h2

/-- **C117 (refused).** Code generation fails if there is, among the documents that are needed, one without a target namespace (even if
it is included by a document that has one), an import without a namespace, or an include without a location. -/
theorem C117_refused (hw : Documents base b read files root) (n : Nat) (parent : Option Str) (f : List Str) (d : DFile)
    (hf : Needed files b root f) (hd : files f = some d)
    (hbad : d.schema.targetNamespace = none ∨ none ∈ d.schema.imports ∨ none ∈ d.schema.includes) :
    ∀ r, filesCode wd urljoin netlocOk digest read base n parent base [] [] [] root ≠ .ok r := by
  intro r h
  obtain ⟨L, cs, last, _, _, h3, _, h5, _⟩ := C117_code hw n parent r h
  obtain ⟨c, _, d', loc, u, hd', hc, _⟩ := h5.mem_left ((h3 f).2 hf)
  cases hd.symm.trans hd'
  rcases hbad with hb | hb | hb
  · obtain ⟨ns, e, _⟩ := hc.namespaced
    rw [hb] at e; cases e
  · obtain ⟨v, _, ns, e, _⟩ := hc.imports.mem_left hb
    cases e
  · obtain ⟨v, _, l, g, loc, e, _⟩ := hc.includes.mem_left hb
    cases e

/-! ### Loading -/

/-- The names a document's code assigns its schema to. -/
def FileCode.Assigns (c : FileCode) (v : Str) : Prop := v = c.module.schema.var ∨ ∃ u, c.second = some (u, v)

theorem execFile_ok {limit : Nat} {vars : SchemaVars} {env : PyEnv} {c : FileCode} {r} (h : execFile limit vars env c = .ok r) :
    ∃ is js, mapI (schemaVar vars) c.module.schema.imports = .ok is ∧ mapI (schemaVar vars) c.module.schema.includes = .ok js ∧
      literal (textValue '\'' c.module.schema.targetNamespace) = .ok r.2.2.targetNamespace ∧ r.2.2.imports = is ∧
      ∃ new, r.2.1 = new ++ vars ∧ (∀ p ∈ new, p.2.1 = r.2.2.targetNamespace ∧ c.Assigns p.1) ∧
        ∀ v, c.Assigns v → ∃ p ∈ new, p.1 = v := by
  unfold execFile at h
  obtain ⟨m, hm, h⟩ := bindI h
  have key : ∃ is js, mapI (schemaVar vars) c.module.schema.imports = .ok is ∧ mapI (schemaVar vars) c.module.schema.includes = .ok js ∧
      literal (textValue '\'' c.module.schema.targetNamespace) = .ok m.2.targetNamespace ∧ m.2.imports = is := by
    unfold execModule at hm
    obtain ⟨_, _, hm⟩ := bindI hm
    obtain ⟨e, _, hm⟩ := bindI hm
    obtain ⟨s, hs, hm⟩ := bindI hm
    injection hm with hm; subst hm
    unfold execSchema at hs
    obtain ⟨is, h1, hs⟩ := bindI hs
    obtain ⟨js, h2, hs⟩ := bindI hs
    obtain ⟨t, h3, hs⟩ := bindI hs
    obtain ⟨_, _, hs⟩ := bindI hs
    obtain ⟨_, _, hs⟩ := bindI hs
    obtain ⟨_, _, hs⟩ := bindI hs
    obtain ⟨_, _, hs⟩ := bindI hs
    obtain ⟨_, _, hs⟩ := bindI hs
    obtain ⟨_, _, hs⟩ := bindI hs
    obtain ⟨_, _, hs⟩ := bindI hs
    obtain ⟨_, _, hs⟩ := bindI hs
    obtain ⟨_, _, hs⟩ := bindI hs
    obtain ⟨_, _, hs⟩ := bindI hs
    obtain ⟨_, _, hs⟩ := bindI hs
    obtain ⟨_, _, hs⟩ := bindI hs
    obtain ⟨_, _, hs⟩ := bindI hs
    injection hs with hs; subst hs
    exact ⟨is, js, h1, h2, h3, rfl⟩
  obtain ⟨is, js, k1, k2, k3, k4⟩ := key
  refine ⟨is, js, k1, k2, ?_⟩
  unfold FileCode.Assigns
  split at h
  · rename_i hsec
    injection h with h; subst h
    refine ⟨k3, k4, [_], rfl, ?_, ?_⟩
    · intro p hp; cases List.mem_singleton.1 hp; exact ⟨rfl, .inl rfl⟩
    · rintro v (rfl | ⟨u, hu⟩)
      · exact ⟨_, List.mem_cons_self .., rfl⟩
      · rw [hsec] at hu; cases hu
  · rename_i p hsec
    obtain ⟨loc, _, h⟩ := bindI h
    injection h with h; subst h
    refine ⟨k3, k4, [_, _], rfl, ?_, ?_⟩
    · intro q hq
      rcases List.mem_cons.1 hq with rfl | hq
      · exact ⟨rfl, .inr ⟨p.1, hsec⟩⟩
      · cases List.mem_singleton.1 hq; exact ⟨rfl, .inl rfl⟩
    · rintro v (rfl | ⟨u, hu⟩)
      · exact ⟨_, List.mem_cons_of_mem _ (List.mem_cons_self ..), rfl⟩
      · rw [hsec] at hu; injection hu with hu; subst hu
        exact ⟨_, List.mem_cons_self .., rfl⟩

theorem execFiles_append {limit : Nat} {vars : SchemaVars} {env : PyEnv} {pre post : List FileCode} {x}
    (h : execFiles limit vars env (pre ++ post) = .ok x) :
    ∃ y z, execFiles limit vars env pre = .ok y ∧ execFiles limit y.2.1 y.1 post = .ok z ∧ x = (z.1, z.2.1, y.2.2 ++ z.2.2) := by
  induction pre generalizing vars env x with
  | nil => exact ⟨(env, vars, []), x, rfl, h, rfl⟩
  | cons c pre ih =>
    simp only [List.cons_append, execFiles] at h
    obtain ⟨r, hr, h⟩ := bindI h
    obtain ⟨s, hs, h⟩ := bindI h
    injection h with h; subst h
    obtain ⟨y, z, h1, h2, rfl⟩ := ih hs
    refine ⟨(y.1, y.2.1, r.2.2 :: y.2.2), z, ?_, h2, rfl⟩
    simp only [execFiles]
    rw [hr]
    show (execFiles limit r.2.1 r.1 pre >>= _) = _
    rw [h1]
    rfl

/-- Where the variables come from. -/
theorem execFiles_vars {limit : Nat} {vars : SchemaVars} {env : PyEnv} {cs : List FileCode} {x}
    (h : execFiles limit vars env cs = .ok x) :
    (∀ p ∈ x.2.1, p ∈ vars ∨ ∃ c ∈ cs, c.Assigns p.1 ∧ literal (textValue '\'' c.module.schema.targetNamespace) = .ok p.2.1) ∧
    (∀ c ∈ cs, ∀ v, c.Assigns v → ∃ p ∈ x.2.1, p.1 = v) ∧ (∀ p ∈ vars, p ∈ x.2.1) := by
  induction cs generalizing vars env x with
  | nil =>
    simp only [execFiles] at h
    injection h with h; subst h
    exact ⟨fun p hp => .inl hp, by simp, fun p hp => hp⟩
  | cons c cs ih =>
    simp only [execFiles] at h
    obtain ⟨r, hr, h⟩ := bindI h
    obtain ⟨s, hs, h⟩ := bindI h
    injection h with h; subst h
    obtain ⟨i1, i2, i3⟩ := ih hs
    obtain ⟨_, _, _, _, k3, _, new, k5, k6, k7⟩ := execFile_ok hr
    refine ⟨?_, ?_, ?_⟩
    · intro p hp
      rcases i1 p hp with h | ⟨c', hc', h⟩
      · rw [k5] at h
        rcases List.mem_append.1 h with h | h
        · exact .inr ⟨c, by simp, (k6 p h).2, by rw [(k6 p h).1]; exact k3⟩
        · exact .inl h
      · exact .inr ⟨c', by simp [hc'], h⟩
    · intro c' hc' v hv
      rcases List.mem_cons.1 hc' with rfl | hc'
      · obtain ⟨p, hp, e⟩ := k7 v hv
        exact ⟨p, i3 p (by rw [k5]; exact List.mem_append_left _ hp), e⟩
      · exact i2 c' hc' v hv
    · intro p hp
      exact i3 p (by rw [k5]; exact List.mem_append_right _ hp)

theorem schemaVar_ok {vars : SchemaVars} {v : Str} {s} (h : schemaVar vars v = .ok s) : (v, s) ∈ vars := by
  unfold schemaVar at h
  split at h
  · rename_i p hp
    injection h with h; subst h
    have h1 := List.find?_some hp
    simp only [decide_eq_true_eq] at h1
    rw [← h1]
    exact List.mem_of_find?_eq_some hp
  · cases h

theorem schemaVar_some {vars : SchemaVars} {v : Str} (h : ∃ p ∈ vars, p.1 = v) : ∃ s, schemaVar vars v = .ok s := by
  obtain ⟨p, hp, hv⟩ := h
  unfold schemaVar
  cases hf : vars.find? (fun p => p.1 = v) with
  | some q => exact ⟨_, rfl⟩
  | none =>
    have := List.find?_eq_none.1 hf p hp
    simp [hv] at this

theorem mapI_found {α β : Type} {f : α → Except ImportErr β} {l : List α} (h : ∀ a ∈ l, ∃ b, f a = .ok b) : ∃ r, mapI f l = .ok r := by
  induction l with
  | nil => exact ⟨[], rfl⟩
  | cons a l ih =>
    obtain ⟨b, hb⟩ := h a (by simp)
    obtain ⟨r, hr⟩ := ih fun x hx => h x (by simp [hx])
    refine ⟨b :: r, ?_⟩
    unfold mapI
    rw [hb]
    show (mapI f l >>= _) = _
    rw [hr]
    rfl

/-- What is known of the code of the documents before the root document. -/
abbrev DocCode (digest : Str → Str) (files : List Str → Option DFile) (b : List Str) (f : List Str) (c : FileCode) : Prop :=
  ∃ d loc u, files f = some d ∧ CodeFor digest none b f.dropLast d c ∧ CalledIn b f loc ∧ c.second = some (u, varFor digest loc)

theorem varFor_inj {digest : Str → Str} {s t : Str} (h : varFor digest s = varFor digest t) : digest s = digest t :=
  List.append_cancel_left h

/-- The code that assigns a variable named after a location is that of the file there. -/
theorem assigns_location {parent : Option Str} (hn : NoCollisions digest files b parent root) {f g : List Str} {c : FileCode} {loc : Str}
    (hg : (files g).isSome) (hl : CalledIn b g loc) (hu : ∀ {f f' s}, CalledIn b f s → CalledIn b f' s → (files f).isSome → (files f').isSome → f = f')
    (hc : DocCode digest files b f c) (ha : c.Assigns (varFor digest loc)) : f = g := by
  obtain ⟨d, loc', u, hd, hcode, hloc, hsec⟩ := hc
  rcases ha with ha | ⟨u', ha⟩
  · obtain ⟨ns, e, _, hv⟩ := hcode.namespaced
    rw [Option.or_none] at e
    rw [hv] at ha
    exact absurd (varFor_inj ha) (hn.both g loc ns hg hl (.inr (.inr (.inr ⟨f, .inl ⟨d, hd, e⟩⟩))))
  · rw [hsec] at ha
    injection ha with ha
    injection ha with _ ha
    have hf : (files f).isSome := by rw [hd]; rfl
    have := hn.locations f g loc' loc hf hg hloc hl (varFor_inj ha)
    subst this
    exact hu hloc hl hf hg

/-- The code that assigns a variable named after a namespace is that of a file with this namespace. -/
theorem assigns_namespace {parent : Option Str} (hn : NoCollisions digest files b parent root) {f : List Str} {c : FileCode} {ns : Str}
    (hns : NamespaceText files parent root ns) (hc : DocCode digest files b f c) (ha : c.Assigns (varFor digest ns)) :
    HasNamespace files f ns ∧ c.module.schema.targetNamespace = ns := by
  obtain ⟨d, loc', u, hd, hcode, hloc, hsec⟩ := hc
  rcases ha with ha | ⟨u', ha⟩
  · obtain ⟨ns', e, ht, hv⟩ := hcode.namespaced
    rw [Option.or_none] at e
    rw [hv] at ha
    have := hn.namespaces ns ns' hns (.inr (.inr (.inr ⟨f, .inl ⟨d, hd, e⟩⟩))) (varFor_inj ha)
    subst this
    exact ⟨⟨d, hd, e⟩, ht⟩
  · rw [hsec] at ha
    injection ha with ha
    injection ha with _ ha
    exact absurd (varFor_inj ha) (hn.both f loc' ns (by rw [hd]; rfl) hloc hns)

theorem all2_append_right {α β : Type} {R : α → β → Prop} {as : List α} {bs bs' : List β} (h : All2 R as (bs ++ bs')) :
    ∃ as1 as2, as = as1 ++ as2 ∧ All2 R as1 bs ∧ All2 R as2 bs' := by
  induction bs generalizing as with
  | nil => exact ⟨[], as, rfl, .nil, h⟩
  | cons b bs ih =>
    cases h with
    | @cons a _ as _ hab h =>
    obtain ⟨as1, as2, rfl, h1, h2⟩ := ih h
    exact ⟨a :: as1, as2, rfl, .cons hab h1, h2⟩

theorem all2_map_eq {α β : Type} {f : β → α} {as : List α} {bs : List β} (h : All2 (fun a b => a = f b) as bs) : as = bs.map f := by
  induction h with
  | nil => rfl
  | cons h _ ih => rw [List.map_cons, h, ih]

theorem calledIn_unique (hw : Documents base b read files root) {f f' : List Str} {s : Str} (h : CalledIn b f s) (h' : CalledIn b f' s)
    (hf : (files f).isSome) (hf' : (files f').isSome) : f = f' := by
  have key : ∀ {f}, (files f).isSome → CalledIn b f s → StandsFor b s f := by
    intro f hf h
    have hpr := hw.names f hf
    obtain ⟨way, h1, h2⟩ := h
    rw [shortWay_unique h1 (shortWay_rel b f)] at h2
    have : s = relText b f := by rw [relText, if_neg h2.1, h2.2.2]
    rw [this]
    exact relText_stands hpr
  exact stands_unique (key hf h) (key hf' h')

/-- **C117 (order).** If the module generated for several documents can be imported, each document has been preceded by those it includes and,
for each namespace it imports, by a document with this namespace. -/
theorem C117_order (hw : Documents base b read files root) (n : Nat) (parent : Option Str) (hn : NoCollisions digest files b parent root) (r)
    (h : filesCode wd urljoin netlocOk digest read base n parent base [] [] [] root = .ok r) (limit : Nat) (x)
    (hx : execFiles limit [] [] r.1 = .ok x) :
    ∃ L : List (List Str), L.Nodup ∧ (∀ f, f ∈ L ↔ Needed files b root f) ∧
      (∀ f ∈ L, ∀ g, SaysInclude files f g → Before L g f) ∧
      (∀ f ∈ L, ∀ ns, SaysImport files f ns → ∃ g, Before L g f ∧ HasNamespace files g ns) ∧
      ∀ ns, some ns ∈ root.schema.imports → ∃ g ∈ L, HasNamespace files g ns := by
  obtain ⟨L, cs, last, e, h2, h3, h4, h5, h6, h7⟩ := C117_code hw n parent r h
  rw [e] at hx
  have hu := fun {f f' : List Str} {s : Str} => calledIn_unique (f := f) (f' := f') (s := s) hw
  -- what is found when the code `c` is executed after `m1`
  have found : ∀ {m1 : List FileCode} {c : FileCode} {m2 : List FileCode} {l1 : List (List Str)}, cs ++ [last] = m1 ++ c :: m2 →
      All2 (DocCode digest files b) l1 m1 → ∀ v, v ∈ c.module.schema.imports ∨ v ∈ c.module.schema.includes →
      ∃ f' c', f' ∈ l1 ∧ DocCode digest files b f' c' ∧ c'.Assigns v := by
    intro m1 c m2 l1 ec hl v hv
    rw [ec] at hx
    obtain ⟨y, z, hy, hz, _⟩ := execFiles_append hx
    simp only [execFiles] at hz
    obtain ⟨r1, hr1, _⟩ := bindI hz
    obtain ⟨is, js, k1, k2, _⟩ := execFile_ok hr1
    have : ∃ s, (v, s) ∈ y.2.1 := by
      rcases hv with hv | hv
      · obtain ⟨s, _, hs⟩ := (mapI_inv k1).mem_left hv
        exact ⟨s, schemaVar_ok hs⟩
      · obtain ⟨s, _, hs⟩ := (mapI_inv k2).mem_left hv
        exact ⟨s, schemaVar_ok hs⟩
    obtain ⟨s, hs⟩ := this
    rcases (execFiles_vars hy).1 _ hs with h | ⟨c', hc', ha, _⟩
    · cases h
    · obtain ⟨f', hf', hd⟩ := hl.mem_right hc'
      exact ⟨f', c', hf', hd, ha⟩
  refine ⟨L, h2, h3, ?_, ?_, ?_⟩
  · rintro f hf g ⟨d, l, hd, hl, hs⟩
    obtain ⟨l1, l2, m1, c, m2, e1, e2, ⟨d', loc, u, hd', hcode, _⟩, a1, _⟩ := all2_split h5 hf
    cases hd.symm.trans hd'
    obtain ⟨v, hv, l', g', loc', e3, hs', hloc, rfl⟩ := hcode.includes.mem_left hl
    injection e3 with e3; subst e3
    have hg := stands_unique hs hs'
    subst hg
    obtain ⟨f', c', hf', hc', ha⟩ := found (m2 := m2 ++ [last]) (by rw [e2]; simp) a1 _ (.inr hv)
    have hgs : (files g).isSome := skel_some.1 ((hw.good f d hd l (List.mem_append_left _ hl)).2 g hs).1
    have := assigns_location hn hgs hloc hu hc' ha
    subst this
    obtain ⟨p, q, rfl⟩ := List.append_of_mem hf'
    exact ⟨p, q, l2, by rw [e1]; simp⟩
  · rintro f hf ns ⟨d, hd, hi⟩
    obtain ⟨l1, l2, m1, c, m2, e1, e2, ⟨d', loc, u, hd', hcode, _⟩, a1, _⟩ := all2_split h5 hf
    cases hd.symm.trans hd'
    obtain ⟨v, hv, ns', e3, rfl⟩ := hcode.imports.mem_left hi
    injection e3 with e3; subst e3
    obtain ⟨f', c', hf', hc', ha⟩ := found (m2 := m2 ++ [last]) (by rw [e2]; simp) a1 _ (.inl hv)
    have := assigns_namespace hn (.inr (.inr (.inr ⟨f, .inr ⟨d, hd, hi⟩⟩))) hc' ha
    obtain ⟨p, q, rfl⟩ := List.append_of_mem hf'
    exact ⟨f', ⟨p, q, l2, by rw [e1]; simp⟩, this.1⟩
  · intro ns hi
    obtain ⟨v, hv, ns', e3, rfl⟩ := h6.imports.mem_left hi
    injection e3 with e3; subst e3
    obtain ⟨f', c', hf', hc', ha⟩ := found (m2 := []) rfl h5 _ (.inl hv)
    exact ⟨f', hf', (assigns_namespace hn (.inr (.inr (.inl hi))) hc' ha).1⟩

theorem before_trans {α : Type} {l : List α} (hl : l.Nodup) {a b c : α} (h1 : Before l a b) (h2 : Before l b c) : Before l a c := by
  obtain ⟨p, q, s, rfl⟩ := h1
  obtain ⟨p', q', s', e⟩ := h2
  have hb1 : p ++ a :: (q ++ b :: s) = (p ++ a :: q) ++ b :: s := by simp
  rw [hb1] at e hl
  have : p ++ a :: q = p' ∧ s = q' ++ c :: s' := by
    rcases List.append_eq_append_iff.1 e with ⟨t, e1, e2⟩ | ⟨t, e1, e2⟩
    · cases t with
      | nil => simp at e2; exact ⟨by simpa using e1.symm, e2⟩
      | cons y t =>
        injection e2 with e2 e3
        subst e2
        exfalso
        rw [e3] at hl
        have := (List.nodup_append.1 hl).2.1
        simp at this
    · cases t with
      | nil => simp at e2; exact ⟨by simpa using e1, e2.symm⟩
      | cons y t =>
        injection e2 with e2 e3
        subst e2
        exfalso
        rw [e1] at hl
        have := (List.nodup_append.1 hl).2.2 b (by simp) b (by simp)
        exact this rfl
  obtain ⟨_, rfl⟩ := this
  exact ⟨p, q ++ b :: q', s', by simp⟩

theorem before_irrefl {α : Type} {l : List α} (hl : l.Nodup) {a : α} : ¬ Before l a a := by
  rintro ⟨p, q, s, rfl⟩
  have := (List.nodup_append.1 hl).2.1
  simp at this

theorem before_mem {α : Type} {l : List α} {a b : α} (h : Before l a b) : a ∈ l := by
  obtain ⟨p, q, s, rfl⟩ := h
  simp

/-- **C117 (circles).** Documents that include each other, or import each other's namespaces, in a circle: the code that is generated
for them cannot be imported. -/
theorem C117_circle (hw : Documents base b read files root) (n : Nat) (parent : Option Str) (hn : NoCollisions digest files b parent root)
    (f : List Str) (hf : Needed files b root f) (hc : DependWay files f f) (r)
    (h : filesCode wd urljoin netlocOk digest read base n parent base [] [] [] root = .ok r) (limit : Nat) :
    ∀ x, execFiles limit [] [] r.1 ≠ .ok x := by
  intro x hx
  obtain ⟨L, h1, h2, h3, h4, _⟩ := C117_order hw n parent hn r h limit x hx
  have step : ∀ {f g}, f ∈ L → DependsOn files f g → Before L g f := by
    rintro f g hf (hd | ⟨ns, hi, hu⟩)
    · exact h3 f hf g hd
    · obtain ⟨g', hb, hns⟩ := h4 f hf ns hi
      exact hu g' hns ▸ hb
  have way : ∀ {f g}, DependWay files f g → f ∈ L → Before L g f := by
    intro f g hd
    induction hd with
    | one hd => exact fun hf => step hf hd
    | more hd _ ih => exact fun hf => before_trans h1 (ih (before_mem (step hf hd))) (step hf hd)
  exact before_irrefl h1 (way hc ((h2 f).2 hf))

/-- **C117 (found).** Without circles, if every imported namespace is the target namespace of a document that is imported, the statement
that creates the schema of a document finds the variables of all schemas it mentions. -/
theorem C117_found (hw : Documents base b read files root) (n : Nat) (parent : Option Str)
    (hac : ∀ f g, Includes (skeletons files) f g → ¬ Leads (skeletons files) g f)
    (hir : ∀ f d, files f = some d → ImportsRight files f.dropLast d) (hir0 : ImportsRight files b root) (r)
    (h : filesCode wd urljoin netlocOk digest read base n parent base [] [] [] root = .ok r) (limit : Nat)
    (m1 : List FileCode) (c : FileCode) (m2 : List FileCode) (hm : r.1 = m1 ++ c :: m2) (y)
    (hy : execFiles limit [] [] m1 = .ok y) :
    (∃ is, mapI (schemaVar y.2.1) c.module.schema.imports = .ok is) ∧ ∃ js, mapI (schemaVar y.2.1) c.module.schema.includes = .ok js := by
  obtain ⟨L, cs, last, e, h2, h3, h4, h5, h6, h7⟩ := C117_code hw n parent r h
  have hbase := hw.world.1
  -- the documents before `c`
  have split : ∃ l1 dir d p, All2 (DocCode digest files b) l1 m1 ∧ CodeFor digest p b dir d c ∧ ImportsRight files dir d ∧
      (∀ l g, some l ∈ d.locations → StandsFor dir l g → g ∈ l1 ∧ (files g).isSome ∧ (∀ x ∈ g, Proper x) ∧ ¬ g <+: b) := by
    rw [e] at hm
    rcases List.append_eq_append_iff.1 hm with ⟨t, e1, e2⟩ | ⟨t, e1, e2⟩
    · cases t with
      | nil =>
        simp only [List.append_nil, List.nil_append] at e1 e2
        injection e2 with e2 _
        subst e1 e2
        refine ⟨L, b, root, parent, h5, h6, hir0, fun l g hl hs => ?_⟩
        have hgood := (hw.root l hl).2 g hs
        have hgs := skel_some.1 hgood.1
        exact ⟨(h3 g).2 ⟨g, ⟨l, hl, hs⟩, .self g⟩, hgs, hw.names g hgs, hgood.2⟩
      | cons z t => cases t <;> simp at e2
    · cases t with
      | nil =>
        simp only [List.append_nil, List.nil_append] at e1 e2
        injection e2 with e2 _
        subst e1 e2
        refine ⟨L, b, root, parent, h5, h6, hir0, fun l g hl hs => ?_⟩
        have hgood := (hw.root l hl).2 g hs
        have hgs := skel_some.1 hgood.1
        exact ⟨(h3 g).2 ⟨g, ⟨l, hl, hs⟩, .self g⟩, hgs, hw.names g hgs, hgood.2⟩
      | cons z t =>
        injection e2 with e2 _
        subst e2
        rw [e1] at h5
        obtain ⟨l1, lr, el, a1, a2⟩ := all2_append_right h5
        cases a2 with
        | @cons f _ l2 _ hfc _ =>
        subst el
        obtain ⟨d, loc, u, hd, hcode, _⟩ := hfc
        refine ⟨l1, f.dropLast, d, none, a1, hcode, hir f d hd, fun l g hl hs => ?_⟩
        have hinc : Includes (skeletons files) f g := ⟨_, skel_eq hd, l, hl, hs⟩
        obtain ⟨_, hb⟩ := h4 f (by simp) g hinc
        have hgood := (hw.good f d hd l hl).2 g hs
        have hgs := skel_some.1 hgood.1
        refine ⟨?_, hgs, hw.names g hgs, hgood.2⟩
        rcases hb with hb | hb
        · obtain ⟨p, q, s, eb⟩ := hb
          have : ∀ {p q s l1 l2 : List (List Str)} {f g : List Str}, (l1 ++ f :: l2).Nodup → l1 ++ f :: l2 = p ++ g :: (q ++ f :: s) → g ∈ l1 := by
            intro p q s l1 l2 f g hnd eb
            have eb' : l1 ++ f :: l2 = (p ++ g :: q) ++ f :: s := by rw [eb]; simp
            rcases List.append_eq_append_iff.1 eb' with ⟨t, e1, e2⟩ | ⟨t, e1, e2⟩
            · cases t with
              | nil => simp at e1; rw [← e1]; simp
              | cons y t =>
                injection e2 with e2 e3
                subst e2
                exfalso
                rw [e3] at hnd
                have := (List.nodup_append.1 hnd).2.1
                simp at this
            · rw [e1]; simp
          exact this h2 eb
        · exact absurd hb (hac f g hinc)
  obtain ⟨l1, dir, d, p, a1, hcode, hi, hl1⟩ := split
  obtain ⟨_, v2, _⟩ := execFiles_vars hy
  constructor
  · refine mapI_found fun v hv => schemaVar_some ?_
    obtain ⟨o, ho, ns, rfl, rfl⟩ := hcode.imports.mem_right hv
    obtain ⟨l, g, hl, hs, d', hd', hns⟩ := hi ns ho
    obtain ⟨hg, _⟩ := hl1 l g (List.mem_append_right _ hl) hs
    obtain ⟨c', hc', d'', loc, u, hd'', hcode', _⟩ := a1.mem_left hg
    cases hd'.symm.trans hd''
    obtain ⟨ns', e1, _, e2⟩ := hcode'.namespaced
    rw [hns] at e1
    injection e1 with e1; subst e1
    exact v2 c' hc' _ (.inl e2.symm)
  · refine mapI_found fun v hv => schemaVar_some ?_
    obtain ⟨o, ho, l, g, loc, rfl, hs, hloc, rfl⟩ := hcode.includes.mem_right hv
    obtain ⟨hg, hgs, hpr, hnp⟩ := hl1 l g (List.mem_append_left _ ho) hs
    obtain ⟨c', hc', d'', loc', u, hd'', hcode', hloc', hsec⟩ := a1.mem_left hg
    rw [(location_iff hpr hnp).1 hloc, ← (location_iff hpr hnp).1 hloc']
    exact v2 c' hc' _ (.inr ⟨u, hsec⟩)

/-- **C117 (schemas).** When the module is imported, every document has a schema object with its target namespace, and with the
namespaces it imports as the target namespaces of the schemas it imports, if these namespaces need no escapes in the code. -/
theorem C117_schemas (hw : Documents base b read files root) (n : Nat) (parent : Option Str) (hn : NoCollisions digest files b parent root) (r)
    (hp : ∀ t, NamespaceText files parent root t → PlainText '\'' t)
    (h : filesCode wd urljoin netlocOk digest read base n parent base [] [] [] root = .ok r) (limit : Nat) (x)
    (hx : execFiles limit [] [] r.1 = .ok x) :
    ∃ (L : List (List Str)) (gs : List GSchema) (g0 : GSchema), x.2.2 = gs ++ [g0] ∧ (∀ f, f ∈ L ↔ Needed files b root f) ∧ L.Nodup ∧
      All2 (fun f g => ∃ d, files f = some d ∧ d.schema.targetNamespace = some g.targetNamespace ∧
        d.schema.imports = g.imports.map fun i => some i.1) L gs ∧
      root.schema.targetNamespace.or parent = some g0.targetNamespace ∧ root.schema.imports = g0.imports.map fun i => some i.1 := by
  obtain ⟨L, cs, last, e, h2, h3, h4, h5, h6, h7⟩ := C117_code hw n parent r h
  rw [e] at hx
  -- one document after others
  have one : ∀ {m1 : List FileCode} {l1 : List (List Str)} {y z} {c : FileCode} {par : Option Str} {dir : List Str} {d : DFile},
      All2 (DocCode digest files b) l1 m1 → execFiles limit [] [] m1 = .ok y → execFile limit y.2.1 y.1 c = .ok z →
      CodeFor digest par b dir d c → (∀ ns, d.schema.targetNamespace.or par = some ns → NamespaceText files parent root ns) →
      (∀ ns, some ns ∈ d.schema.imports → NamespaceText files parent root ns) →
      d.schema.targetNamespace.or par = some z.2.2.targetNamespace ∧ d.schema.imports = z.2.2.imports.map fun i => some i.1 := by
    intro m1 l1 y z c par dir d hl hy hz hcode ht hi
    obtain ⟨is, js, k1, _, k3, k4, _⟩ := execFile_ok hz
    obtain ⟨ns, e1, e2, _⟩ := hcode.namespaced
    rw [e2] at k3
    refine ⟨by rw [e1, literal_plain_eq k3 (hp ns (ht ns e1))], ?_⟩
    rw [k4]
    have hall := hcode.imports.comp (mapI_inv k1)
    have : All2 (fun o s => o = some s.1) d.schema.imports is := by
      refine hall.imp_mem fun o ho s _ hos => ?_
      obtain ⟨v, ⟨ns', rfl, rfl⟩, hs⟩ := hos
      have hm := schemaVar_ok hs
      rcases (execFiles_vars hy).1 _ hm with h | ⟨c', hc', ha, hlit⟩
      · cases h
      · obtain ⟨f', _, hd'⟩ := hl.mem_right hc'
        obtain ⟨_, e3⟩ := assigns_namespace hn (hi ns' ho) hd' ha
        rw [e3] at hlit
        rw [literal_plain_eq hlit (hp ns' (hi ns' ho))]
    exact all2_map_eq this
  have many : ∀ {m2 : List FileCode} {l2 : List (List Str)}, All2 (DocCode digest files b) l2 m2 → ∀ {m1 : List FileCode} {l1 : List (List Str)} {y z},
      All2 (DocCode digest files b) l1 m1 → execFiles limit [] [] m1 = .ok y → execFiles limit y.2.1 y.1 m2 = .ok z →
      All2 (fun f g => ∃ d, files f = some d ∧ d.schema.targetNamespace = some g.targetNamespace ∧
        d.schema.imports = g.imports.map fun i => some i.1) l2 z.2.2 := by
    intro m2 l2 hl2
    induction hl2 with
    | nil =>
      intro m1 l1 y z _ _ hz
      simp only [execFiles] at hz
      injection hz with hz; subst hz
      exact .nil
    | @cons f c l2 m2 hfc _ ih =>
      intro m1 l1 y z hl1 hy hz
      simp only [execFiles] at hz
      obtain ⟨r1, hr1, hz⟩ := bindI hz
      obtain ⟨s1, hs1, hz⟩ := bindI hz
      injection hz with hz; subst hz
      have hfc' := hfc
      obtain ⟨d, loc, u, hd, hcode, _⟩ := hfc
      have h1 := one hl1 hy hr1 hcode (fun ns hns => .inr (.inr (.inr ⟨f, .inl ⟨d, hd, by rw [Option.or_none] at hns; exact hns⟩⟩)))
        (fun ns hns => .inr (.inr (.inr ⟨f, .inr ⟨d, hd, hns⟩⟩)))
      rw [Option.or_none] at h1
      have hy' : execFiles limit [] [] (m1 ++ [c]) = .ok (r1.1, r1.2.1, y.2.2 ++ [r1.2.2]) := by
        clear ih hs1
        have : ∀ {m1 : List FileCode} {vars : SchemaVars} {env : PyEnv} {y}, execFiles limit vars env m1 = .ok y → execFile limit y.2.1 y.1 c = .ok r1 →
            execFiles limit vars env (m1 ++ [c]) = .ok (r1.1, r1.2.1, y.2.2 ++ [r1.2.2]) := by
          intro m1
          induction m1 with
          | nil =>
            intro vars env y hy hr
            simp only [execFiles] at hy
            injection hy with hy; subst hy
            simp only [List.nil_append, execFiles]
            simp only at hr
            rw [hr]
            rfl
          | cons a m1 ih =>
            intro vars env y hy hr
            simp only [execFiles] at hy
            obtain ⟨r2, hr2, hy⟩ := bindI hy
            obtain ⟨s2, hs2, hy⟩ := bindI hy
            injection hy with hy; subst hy
            have := ih hs2 hr
            simp only [List.cons_append, execFiles]
            rw [hr2]
            show (execFiles limit r2.2.1 r2.1 (m1 ++ [c]) >>= _) = _
            rw [this]
            rfl
        exact this hy hr1
      have hl1' : All2 (DocCode digest files b) (l1 ++ [f]) (m1 ++ [c]) := hl1.append (.cons hfc' .nil)
      exact .cons ⟨d, hd, h1⟩ (ih hl1' hy' hs1)
  obtain ⟨y, z, hy, hz, rfl⟩ := execFiles_append hx
  simp only [execFiles] at hz
  obtain ⟨r1, hr1, hz⟩ := bindI hz
  injection hz with hz; subst hz
  have hlast := one h5 hy hr1 h6 (fun ns hns => by
      cases htn : root.schema.targetNamespace with
      | some t => rw [htn] at hns; injection hns with hns; subst hns; exact .inr (.inl htn)
      | none => rw [htn] at hns; exact .inl hns)
    (fun ns hns => .inr (.inr (.inl hns)))
  refine ⟨L, y.2.2, r1.2.2, rfl, h3, h2, ?_, hlast⟩
  exact many h5 (m1 := []) (l1 := []) (y := ([], [], [])) .nil rfl hy

/-- **C117 (one document).** For a document that mentions no other document the code is that of the other properties about generated code. -/
theorem C117_single (n : Nat) (parent : Option Str) (cwd : Str) (prefixes : List (Option Str)) (d : DSchema) (hi : d.includes = []) (m : PyModule)
    (h : schemaToPy prefixes digest n parent d = .ok m) :
    (filesCode wd urljoin netlocOk digest read base (n + 1) parent cwd [] [] [] ⟨prefixes, d, []⟩).map (·.1) = .ok [⟨m, none⟩] := by
  unfold schemaToPy at h
  obtain ⟨cts, h1, h⟩ := bind_eq_ok.1 h
  obtain ⟨r, h2, h⟩ := bind_eq_ok.1 h
  injection h with h; subst h
  have hd : ({ d with complexTypes := cts, targetNamespace := d.targetNamespace.or parent } : DSchema) =
      { d with complexTypes := cts, targetNamespace := d.targetNamespace.or parent, includes := [] } := by rw [← hi]
  rw [hd] at h2
  simp [filesCode, DFile.locations, hi, rewritePaths, h1, filesLoop, fileCode, Except.bind, Except.map, h2, bind]

end

/-! ### Examples -/

namespace ExFiles

def md5 (t : Str) : Str := if t = py"urn:a" then py"aaaaa" else if t = py"urn:b" then py"bbbbb" else if t = py"urn:c" then py"ccccc" else t.filter (·.isAlpha)

/-- The root document in /w imports the namespace of sub/b.xsd, and both include documents. -/
def a : DFile := { prefixes := [some py"xs"], schema := { targetNamespace := some py"urn:a", imports := [some py"urn:b"], includes := [some py"c.xsd"] }, importLocations := [some py"sub/b.xsd"] }
def b : DFile := { prefixes := [some py"xs"], schema := { targetNamespace := some py"urn:b", includes := [some py"../c.xsd"] } }
def c : DFile := { prefixes := [some py"xs"], schema := { targetNamespace := some py"urn:c" } }
/-- A document without target namespace. -/
def c0 : DFile := { prefixes := [some py"xs"], schema := { targetNamespace := none } }
/-- A document that includes b. -/
def c1 : DFile := { prefixes := [some py"xs"], schema := { targetNamespace := some py"urn:c", includes := [some py"sub/b.xsd"] } }

def read (c : DFile) (p : Str) : Except Exn DFile :=
  if normPath p = py"/w/c.xsd" then .ok c else if normPath p = py"/w/sub/b.xsd" then .ok b else .error (.user 0)

def code (c : DFile) : Except Exn (List FileCode) :=
  (filesCode py"/" (fun _ l => l) (fun _ => true) md5 (read c) py"/w" 7 none py"/w" [] [] [] a).map (·.1)

/-- c.xsd comes once, before the documents that include it. -/
example : (code c).map (fun l => l.map fun f => (f.module.schema.targetNamespace, f.module.schema.var, f.second.map (·.2))) =
    .ok [(py"urn:c", py"Schema_ccccc", some py"Schema_cxsd"), (py"urn:b", py"Schema_bbbbb", some py"Schema_subbxsd"),
      (py"urn:a", py"Schema_aaaaa", none)] := by decide +kernel

/-- The module can be imported. -/
example : (match code c with | .ok l => (match execFiles 10 [] [] l with | .ok x => x.2.2.map fun g => (g.targetNamespace, g.imports.map (·.1)) | .error _ => []) | .error _ => []) =
    [(py"urn:c", []), (py"urn:b", []), (py"urn:a", [py"urn:b"])] := by decide +kernel

/-- A document that is included without having a target namespace. -/
example : (match code c0 with | .error .attributeError => true | _ => false) = true := by decide +kernel

/-- Documents that include each other. -/
example : (match code c1 with | .ok l => (match execFiles 10 [] [] l with | .error (.raised .nameError) => true | _ => false) | .error _ => false) = true := by
  decide +kernel

/-- The same documents as files, and what reading does for all ways of writing their paths. -/
def files : List Str → Option DFile := fun f =>
  if f = [py"w", py"c.xsd"] then some c else if f = [py"w", py"sub", py"b.xsd"] then some b else none

def readAll (p : Str) : Except Exn DFile := match files (rooted p) with
  | some d => .ok d
  | none => .error (.user 0)

example : Documents py"/w" [py"w"] readAll files a where
  dir := ⟨rfl, by decide⟩
  notUrl := by rw [isUrl_iff]; decide
  here := by rw [stands_iff]; decide
  read := by
    intro p f d hp hs hd
    rw [rooted_of_stands hp hs] at hd
    simp only [readAll, hd]
  names := by
    intro f hf
    unfold files at hf
    split at hf
    · rename_i h; subst h; decide
    · split at hf
      · rename_i h; subst h; decide
      · cases hf
  good := by
    intro f d hd
    unfold files at hd
    split at hd
    · injection hd with hd; subst hd
      intro l hl
      cases hl
    · split at hd
      · injection hd with hd; subst hd
        rename_i h; subst h
        intro l hl
        have : l = py"../c.xsd" := by simpa [b, DFile.locations] using hl
        subst this
        refine ⟨by rw [isUrl_iff]; decide, fun g hg => ?_⟩
        rw [stands_iff] at hg
        subst hg
        decide +kernel
      · cases hd
  root := by
    intro l hl
    have : l = py"c.xsd" ∨ l = py"sub/b.xsd" := by simpa [a, DFile.locations] using hl
    rcases this with rfl | rfl
    · refine ⟨by rw [isUrl_iff]; decide, fun g hg => ?_⟩
      rw [stands_iff] at hg
      subst hg
      decide +kernel
    · refine ⟨by rw [isUrl_iff]; decide, fun g hg => ?_⟩
      rw [stands_iff] at hg
      subst hg
      decide +kernel

/-- Both files are needed. -/
example : Needed files [py"w"] a [py"w", py"sub", py"b.xsd"] ∧ Needed files [py"w"] a [py"w", py"c.xsd"] :=
  ⟨⟨_, ⟨py"sub/b.xsd", by decide, by rw [stands_iff]; decide +kernel⟩, .self _⟩, _, ⟨py"c.xsd", by decide, by rw [stands_iff]; decide +kernel⟩, .self _⟩

end ExFiles

end Soapfish
