import Verif.Includes
import Verif.Spec.Includes
import Verif.Props.Imports
/-
XSD documents that include or import each other (C78).
-/
namespace Soapfish

theorem url_join {base rel : Str} (h : IsUrl (base ++ '/' :: rel)) (hl : base.getLast? ≠ some '/')
    (hh : rel.head? ≠ some '/') : IsUrl base ∨ IsUrl rel := by
  obtain ⟨a, b, he⟩ := h
  rw [List.append_assoc] at he
  rcases List.append_eq_append_iff.1 he with ⟨t, h1, h2⟩ | ⟨s, h1, h2⟩
  · -- `a = base ++ t`
    cases t with
    | nil => simp at h2
    | cons c t =>
      simp only [List.cons_append, List.cons.injEq] at h2
      exact .inr ⟨t, b, by rw [h2.2]; simp⟩
  · -- `base = a ++ s`
    rcases s with _ | ⟨c1, _ | ⟨c2, _ | ⟨c3, s⟩⟩⟩
    · simp at h2
    · simp only [List.cons_append, List.nil_append, List.cons.injEq] at h2
      obtain ⟨_, _, h3⟩ := h2
      rw [← h3] at hh
      simp at hh
    · simp only [List.cons_append, List.nil_append, List.cons.injEq] at h2
      rw [h1, ← h2.2.1] at hl
      simp at hl
    · simp only [List.cons_append, List.nil_append, List.cons.injEq] at h2
      obtain ⟨e1, e2, e3, e4⟩ := h2
      exact .inl ⟨a, s, by rw [h1, ← e1, ← e2, ← e3]; simp⟩

theorem intercalate_concat {l : List Str} (h : l ≠ []) (x : Str) :
    ['/'].intercalate (l ++ [x]) = ['/'].intercalate l ++ '/' :: x := by
  induction l with
  | nil => exact absurd rfl h
  | cons y l ih =>
    cases l with
    | nil => simp [List.intercalate, List.intersperse]
    | cons z l =>
      have := ih (by simp)
      simp only [List.intercalate, List.cons_append, List.intersperse, List.flatten_cons] at this ⊢
      rw [this]
      simp

theorem getLast_intercalate {l : List Str} (h : l ≠ []) (hp : ∀ x ∈ l, x ≠ [] ∧ '/' ∉ x) :
    (['/'].intercalate l).getLast? ≠ some '/' ∧ (['/'].intercalate l).head? ≠ some '/' ∧ ['/'].intercalate l ≠ [] := by
  obtain ⟨init, x, rfl⟩ : ∃ init x, l = init ++ [x] := ⟨_, _, (List.dropLast_concat_getLast h).symm⟩
  have hx := hp x (by simp)
  refine ⟨?_, ?_, ?_⟩
  · cases init with
    | nil =>
      intro e
      have : ['/'].intercalate ([] ++ [x]) = x := by simp [List.intercalate]
      rw [this] at e
      exact hx.2 (List.mem_of_getLast? e)
    | cons y init =>
      rw [intercalate_concat (by simp)]
      exact getLast_append_cons hx.1 hx.2
  · obtain ⟨y, ys, e⟩ := List.exists_cons_of_ne_nil h
    rw [e] at hp ⊢
    rw [head_intercalate (hp y (by simp)).1]
    intro e'
    exact (hp y (by simp)).2 (List.mem_of_head? e')
  · obtain ⟨y, ys, e⟩ := List.exists_cons_of_ne_nil h
    rw [e] at hp ⊢
    intro e'
    have := head_intercalate (ps := ys) (hp y (by simp)).1
    rw [e'] at this
    cases hy : y with
    | nil => exact (hp y (by simp)).1 hy
    | cons c cs => rw [hy] at this; simp at this

theorem relText_inj {d f g : List Str} (hf : ∀ x ∈ f, Proper x) (hg : ∀ x ∈ g, Proper x) (h : relText d f = relText d g) :
    f = g :=
  stands_unique (relText_stands hf) (h ▸ relText_stands hg)

theorem relText_ne {d f : List Str} (hf : ∀ x ∈ f, Proper x) : relText d f ≠ [] := by
  unfold relText
  split
  · decide
  · rename_i h
    exact (getLast_intercalate h (relParts_ne hf)).2.2

theorem commonLen_prefix {d f : List Str} (h : commonLen d f = f.length) : f <+: d := by
  obtain ⟨_, _, h3⟩ := commonLen_le d f
  rw [h, List.take_length] at h3
  rw [← h3]
  exact List.take_prefix _ _

/-- Opening a rewritten location: the file and its directory. -/
theorem resolve_rewritten {wd base : Str} {f : List Str} (hb : Directory base) (hbu : ¬ IsUrl base)
    (hf : ∀ x ∈ f, Proper x) (hnp : ¬ f <+: rooted base) :
    ∃ p dir, resolveLocation wd (relText (rooted base) f) base = .ok (p, dir, relText (rooted base) f) ∧
      Absolute p ∧ rooted p = f ∧ Directory dir ∧ ¬ IsUrl dir ∧ rooted dir = f.dropLast := by
  have hne : base ≠ [] := by rintro rfl; cases hb.1
  obtain ⟨p, hp, hr⟩ := resolve_local (wd := wd) hb.1 (relText_not_url (d := rooted base) hf)
  have hj := rooted_join (path := relText (rooted base) f) hb.1
  rw [← hp] at hj
  have hrp : f = rooted p := stands_unique (relText_stands hf) hj.2
  rw [← hrp] at hr
  rw [pathJoin_plain ⟨hne, hb.2⟩ (relText_rel hf)] at hp
  have hlt : commonLen (rooted base) f < f.length := by
    have := (commonLen_le (rooted base) f).2.1
    rcases Nat.lt_or_eq_of_le this with h | h
    · exact h
    · exact absurd (commonLen_prefix h) hnp
  have hfne : f ≠ [] := by rintro rfl; simp at hlt
  obtain ⟨x, hx⟩ : ∃ x, f = f.dropLast ++ [x] := ⟨_, (List.dropLast_concat_getLast hfne).symm⟩
  have hxf : Proper x := hf x (by rw [hx]; simp)
  -- the parts of the relative path end with the name of the file
  obtain ⟨init, hinit⟩ : ∃ init, relParts (rooted base) f = init ++ [x] := by
    unfold relParts
    have : f.drop (commonLen (rooted base) f) = f.dropLast.drop (commonLen (rooted base) f) ++ [x] := by
      rw [← List.drop_append_of_le_length (by rw [List.length_dropLast]; omega), ← hx]
    rw [this, ← List.append_assoc]
    exact ⟨_, rfl⟩
  have hparts := relParts_ne (d := rooted base) hf
  rw [hinit] at hparts
  have htext : relText (rooted base) f = ['/'].intercalate (init ++ [x]) := by
    unfold relText
    rw [hinit, if_neg (by simp)]
  have key : ∃ dir, Directory dir ∧ ¬ IsUrl dir ∧ p = dir ++ '/' :: x := by
    by_cases hi : init = []
    · subst hi
      refine ⟨base, hb, hbu, ?_⟩
      rw [hp, htext]
      simp [List.intercalate]
    · have hi' := getLast_intercalate hi fun y hy => hparts y (by simp [hy])
      refine ⟨base ++ '/' :: ['/'].intercalate init, ⟨?_, ?_⟩, ?_, ?_⟩
      · have := hb.1
        unfold Absolute at this ⊢
        cases base with
        | nil => cases this
        | cons c cs => exact this
      · rw [List.getLast?_append, List.getLast?_cons]
        cases hl : (['/'].intercalate init).getLast? with
        | none => rw [List.getLast?_eq_none_iff] at hl; exact absurd hl hi'.2.2
        | some c =>
          intro e
          simp at e
          exact hi'.1 (by rw [hl, e])
      · intro hu
        rcases url_join hu hb.2 hi'.2.1 with h | h
        · exact hbu h
        · obtain ⟨a, b, he⟩ := h
          refine relText_not_url (d := rooted base) hf ⟨a, b ++ '/' :: x, ?_⟩
          rw [htext, intercalate_concat hi, he]
          simp
      · rw [hp, htext, intercalate_concat hi]
        simp
  obtain ⟨dir, hd, hdu, hpd⟩ := key
  have hdn : dirName p = dir := by
    rw [hpd]
    exact dirName_file (by rintro rfl; cases hd.1) hd.2 hxf.2.2.2
  refine ⟨p, dir, ?_, hj.1, hrp.symm, hd, hdu, ?_⟩
  · rw [hr, hdn]
  · rw [hpd, rooted_append, splitOn_plain hxf.2.2.2] at hrp
    simp only [List.foldl_cons, List.foldl_nil] at hrp
    have : goTo (rooted dir) x = rooted dir ++ [x] := by
      unfold goTo
      rw [if_neg (by rintro (h | h); exact hxf.1 h; exact hxf.2.1 h), if_neg hxf.2.2.1]
    rw [this] at hrp
    rw [hrp]
    simp

/-! ### The traversal -/

section
variable {wd base : Str} {urljoin : Str → Str → Str} {read : Str → Except Exn XsdFile} {files : List Str → Option XsdFile}

/-- The files the locations of a document refer to, in order. -/
def targets (d : List Str) (locations : List (Option Str)) : List (List Str) :=
  locations.filterMap fun o => o.map fun l => (splitOn '/' l).foldl goTo (if l.head? = some '/' then [] else d)

theorem targets_mem {d g : List Str} {doc : XsdFile} : g ∈ targets d doc.locations ↔ RefersToFile d doc g := by
  unfold targets RefersToFile
  rw [List.mem_filterMap]
  constructor
  · rintro ⟨o, ho, e⟩
    cases o with
    | none => cases e
    | some l =>
      injection e with e
      exact ⟨l, ho, stands_iff.2 e.symm⟩
  · rintro ⟨l, hl, hs⟩
    exact ⟨some l, hl, by rw [stands_iff] at hs; rw [hs]; rfl⟩

theorem rewritePaths_ok {cwd : Str} (hb : Directory base) (hc : Directory cwd) (hcu : ¬ IsUrl cwd)
    {ls : List (Option Str)} (h : ∀ l, some l ∈ ls → ¬ IsUrl l) : ∃ ls', rewritePaths wd urljoin cwd base ls = .ok ls' ∧
      ls'.filterMap id = (targets (rooted cwd) ls).map (relText (rooted base)) := by
  induction ls with
  | nil => exact ⟨[], rfl, rfl⟩
  | cons o ls ih =>
    obtain ⟨ls', e, he⟩ := ih fun l hl => h l (by simp [hl])
    cases o with
    | none =>
      refine ⟨none :: ls', ?_, ?_⟩
      · unfold rewritePaths
        rw [e]
        rfl
      · exact he
    | some l =>
      refine ⟨some (relText (rooted base) (rooted (pathJoin cwd l))) :: ls', ?_, ?_⟩
      · unfold rewritePaths
        rw [rewrite_local urljoin hb.1 hc.1 hcu (h l (by simp)), e]
        rfl
      · have := stands_iff.1 (rooted_join (path := l) hc.1).2
        rw [this]
        unfold targets at he ⊢
        simp only [List.filterMap_cons, id, Option.map_some, List.map_cons]
        rw [he]

/-- What the traversal relies on. -/
structure GoodFiles (base : Str) (read : Str → Except Exn XsdFile) (files : List Str → Option XsdFile) : Prop where
  dir : Directory base
  notUrl : ¬ IsUrl base
  read : ∀ p f doc, Absolute p → StandsFor [] p f → files f = some doc → read p = .ok doc
  names : ∀ f, (files f).isSome → ∀ x ∈ f, Proper x
  good : ∀ f doc, files f = some doc → GoodLocations files (rooted base) f.dropLast doc

/-- The code of a file. -/
def codeOf (files : List Str → Option XsdFile) (f : List Str) : Nat := ((files f).map (·.code)).getD 0

/-- What a traversal from the files `gs`, given the known files `Q`, adds: `A` in the order of the code, `P` in the order
they became known. -/
structure Added (files : List Str → Option XsdFile) (gs Q A P : List (List Str)) : Prop where
  perm : P.Perm A
  nodup : (Q ++ P).Nodup
  roots : ∀ g ∈ gs, g ∈ Q ++ P
  from_ : ∀ x ∈ A, ∃ g ∈ gs, Leads files g x
  closed : ∀ x ∈ A, ∀ y, Includes files x y → y ∈ Q ++ P ∧ (y ∈ Q ∨ Before A y x ∨ Leads files y x)

theorem Leads.trans {f g h : List Str} (h1 : Leads files f g) (h2 : Leads files g h) : Leads files f h := by
  induction h2 with
  | self => exact h1
  | via _ h ih => exact .via ih h

theorem Before.left {α : Type} {l l' : List α} {a b : α} (h : Before l a b) : Before (l ++ l') a b := by
  obtain ⟨l1, l2, l3, rfl⟩ := h
  exact ⟨l1, l2, l3 ++ l', by simp⟩

theorem Before.right {α : Type} {l l' : List α} {a b : α} (h : Before l' a b) : Before (l ++ l') a b := by
  obtain ⟨l1, l2, l3, rfl⟩ := h
  exact ⟨l ++ l1, l2, l3, by simp⟩

theorem Added.append {g : List Str} {gs Q A1 P1 A2 P2 : List (List Str)} (h1 : Added files [g] Q A1 P1)
    (h2 : Added files gs (Q ++ P1) A2 P2) : Added files (g :: gs) Q (A1 ++ A2) (P1 ++ P2) := by
  refine ⟨h1.perm.append h2.perm, by rw [← List.append_assoc]; exact h2.nodup, ?_, ?_, ?_⟩
  · intro x hx
    rw [← List.append_assoc]
    rcases List.mem_cons.1 hx with rfl | hx
    · exact List.mem_append.2 (.inl (h1.roots _ (by simp)))
    · exact h2.roots x hx
  · intro x hx
    rcases List.mem_append.1 hx with hx | hx
    · obtain ⟨g', hg', hl⟩ := h1.from_ x hx
      exact ⟨g', by simp at hg'; simp [hg'], hl⟩
    · obtain ⟨g', hg', hl⟩ := h2.from_ x hx
      exact ⟨g', by simp [hg'], hl⟩
  · intro x hx y hy
    rw [← List.append_assoc]
    rcases List.mem_append.1 hx with hx | hx
    · obtain ⟨a, b⟩ := h1.closed x hx y hy
      refine ⟨List.mem_append.2 (.inl a), ?_⟩
      rcases b with b | b | b
      · exact .inl b
      · exact .inr (.inl b.left)
      · exact .inr (.inr b)
    · obtain ⟨a, b⟩ := h2.closed x hx y hy
      refine ⟨a, ?_⟩
      rcases b with b | b | b
      · rcases List.mem_append.1 b with b | b
        · exact .inl b
        · exact .inr (.inl (before_append (h1.perm.subset b) hx))
      · exact .inr (.inl b.right)
      · exact .inr (.inr b)

/-- The known paths are those of the known files. -/
theorem mem_texts {Q : List (List Str)} {g : List Str} {b : List Str} (hQ : ∀ f ∈ Q, ∀ x ∈ f, Proper x) (hg : ∀ x ∈ g, Proper x) :
    relText b g ∈ Q.map (relText b) ↔ g ∈ Q := by
  rw [List.mem_map]
  constructor
  · rintro ⟨f, hf, e⟩
    exact relText_inj (hQ f hf) hg e ▸ hf
  · exact fun h => ⟨g, h, rfl⟩

theorem include_loop (G : GoodFiles base read files) {n : Nat} {U : List (List Str)}
    (nested : ∀ (f : List Str) (doc : XsdFile) (cwd : Str) (Q : List (List Str)), files f = some doc → f ∉ Q → Q.Nodup →
      (∀ g ∈ Q, (files g).isSome) → Directory cwd → ¬ IsUrl cwd → rooted cwd = f.dropLast →
      (U.filter fun g => decide (g ∉ Q)).length < n →
      ∃ A P, generateXsd wd urljoin read base n cwd (Q.map (relText (rooted base))) (relText (rooted base) f) doc =
        .ok (A.map (codeOf files), (Q ++ P).map (relText (rooted base))) ∧ Added files [f] Q A P)
    {gs : List (List Str)} {ls : List (Option Str)} (hls : ls.filterMap id = gs.map (relText (rooted base)))
    (hgs : ∀ g ∈ gs, (files g).isSome ∧ ¬ g <+: rooted base) (out : List Nat) (Q : List (List Str)) (hQ : Q.Nodup)
    (hQf : ∀ g ∈ Q, (files g).isSome) (hn : (U.filter fun g => decide (g ∉ Q)).length < n) :
    ∃ A P, includeLoop wd read base (generateXsd wd urljoin read base n) ls out (Q.map (relText (rooted base))) =
        .ok (out ++ A.map (codeOf files), (Q ++ P).map (relText (rooted base))) ∧ Added files gs Q A P := by
  induction ls generalizing gs out Q with
  | nil =>
    have : gs = [] := by
      cases gs with
      | nil => rfl
      | cons g gs => simp at hls
    subst this
    exact ⟨[], [], by simp [includeLoop], ⟨.refl _, by simpa using hQ, by simp, by simp, by simp⟩⟩
  | cons o ls ih =>
    cases o with
    | none => exact ih hls hgs out Q hQ hQf hn
    | some l =>
      cases gs with
      | nil => simp at hls
      | cons g gs =>
        simp only [List.filterMap_cons, id, List.map_cons, List.cons.injEq] at hls
        obtain ⟨rfl, hls⟩ := hls
        obtain ⟨hgf, hgp⟩ := hgs g (by simp)
        have hpr := G.names g hgf
        obtain ⟨doc, hdoc⟩ := Option.isSome_iff_exists.1 hgf
        obtain ⟨p, dir, hr, hpa, hpr', hd, hdu, hdr⟩ := resolve_rewritten (wd := wd) G.dir G.notUrl hpr hgp
        have hread := G.read p g doc hpa (hpr' ▸ stands_abs hpa []) hdoc
        unfold includeLoop
        rw [if_neg (relText_ne hpr), hr]
        simp only [Except.bind, hread]
        have hmem := mem_texts (b := rooted base) (fun f hf => G.names f (hQf f hf)) hpr
        by_cases hgQ : g ∈ Q
        · rw [if_pos ⟨relText_ne hpr, hmem.2 hgQ⟩]
          obtain ⟨A, P, e, ad⟩ := ih hls (fun g hg => hgs g (by simp [hg])) out Q hQ hQf hn
          refine ⟨A, P, e, ad.perm, ad.nodup, ?_, ?_, ad.closed⟩
          · intro x hx
            rcases List.mem_cons.1 hx with rfl | hx
            · simp [hgQ]
            · exact ad.roots x hx
          · intro x hx
            obtain ⟨g', hg', hl⟩ := ad.from_ x hx
            exact ⟨g', by simp [hg'], hl⟩
        · rw [if_neg fun h => hgQ (hmem.1 h.2)]
          obtain ⟨A1, P1, e1, ad1⟩ := nested g doc dir Q hdoc hgQ hQ hQf hd hdu hdr hn
          rw [e1]
          simp only
          have hQ' : ∀ g ∈ Q ++ P1, (files g).isSome := by
            intro x hx
            rcases List.mem_append.1 hx with hx | hx
            · exact hQf x hx
            · obtain ⟨g', hg', hl⟩ := ad1.from_ x (ad1.perm.subset hx)
              simp only [List.mem_singleton] at hg'
              subst hg'
              cases hl with
              | self => exact hgf
              | via _ h =>
                obtain ⟨d', hd', l', hl', hs⟩ := h
                exact ((G.good _ d' hd') l' hl').2 _ hs |>.1
          have hlt : (U.filter fun x => decide (x ∉ Q ++ P1)).length < n := by
            refine Nat.lt_of_le_of_lt (filter_mono ?_) hn
            intro x hx
            simp only [decide_eq_true_eq, List.mem_append, not_or] at hx ⊢
            exact hx.1
          obtain ⟨A2, P2, e2, ad2⟩ := ih hls (fun g hg => hgs g (by simp [hg])) (out ++ A1.map (codeOf files)) (Q ++ P1) ad1.nodup hQ' hlt
          refine ⟨A1 ++ A2, P1 ++ P2, ?_, ad1.append ad2⟩
          rw [e2]
          simp

theorem generate_file (G : GoodFiles base read files) {n : Nat} {U : List (List Str)} (hU : ∀ g, (files g).isSome → g ∈ U)
    (f : List Str) (doc : XsdFile) (cwd : Str) (Q : List (List Str)) (hf : files f = some doc) (hfQ : f ∉ Q) (hQ : Q.Nodup)
    (hQf : ∀ g ∈ Q, (files g).isSome) (hc : Directory cwd) (hcu : ¬ IsUrl cwd) (hcr : rooted cwd = f.dropLast)
    (hn : (U.filter fun g => decide (g ∉ Q)).length < n) :
    ∃ A P, generateXsd wd urljoin read base n cwd (Q.map (relText (rooted base))) (relText (rooted base) f) doc =
        .ok (A.map (codeOf files), (Q ++ P).map (relText (rooted base))) ∧ Added files [f] Q A P := by
  induction n generalizing f doc cwd Q with
  | zero => omega
  | succ n ih =>
    have hpr := G.names f (by rw [hf]; rfl)
    have hgood := G.good f doc hf
    obtain ⟨ls', e, he⟩ := rewritePaths_ok (wd := wd) (urljoin := urljoin) G.dir hc hcu (ls := doc.locations)
      fun l hl => (hgood l hl).1
    rw [hcr] at he
    have hmem : ∀ g, g ∈ targets f.dropLast doc.locations ↔ Includes files f g := by
      intro g
      rw [targets_mem]
      constructor
      · exact fun h => ⟨doc, hf, h⟩
      · rintro ⟨d', hd', h⟩
        rw [hf] at hd'
        injection hd' with hd'
        exact hd' ▸ h
    have hgs : ∀ g ∈ targets f.dropLast doc.locations, (files g).isSome ∧ ¬ g <+: rooted base := by
      intro g hg
      obtain ⟨l, hl, hs⟩ := targets_mem.1 hg
      exact (hgood l hl).2 g hs
    have hQ1 : (Q ++ [f]).Nodup := by
      rw [List.nodup_append]
      refine ⟨hQ, by simp, ?_⟩
      intro a ha b hb
      simp only [List.mem_singleton] at hb
      rintro rfl
      exact hfQ (hb ▸ ha)
    have hQf1 : ∀ g ∈ Q ++ [f], (files g).isSome := by
      intro g hg
      rcases List.mem_append.1 hg with hg | hg
      · exact hQf g hg
      · simp only [List.mem_singleton] at hg
        rw [hg, hf]
        rfl
    have hlt : (U.filter fun g => decide (g ∉ Q ++ [f])).length < n := by
      refine Nat.lt_of_lt_of_le (filter_drop (a := f) (hU f (by rw [hf]; rfl)) (q := fun g => decide (g ∉ Q)) (by simpa using hfQ)
        (by simp) ?_) (Nat.le_of_lt_succ hn)
      intro x hx
      simp only [decide_eq_true_eq, List.mem_append, not_or] at hx ⊢
      exact hx.1
    obtain ⟨A, P, e2, ad⟩ := include_loop (urljoin := urljoin) (wd := wd) G (n := n) (U := U) (fun f doc cwd Q => ih f doc cwd Q) he hgs [] (Q ++ [f]) hQ1 hQf1 hlt
    refine ⟨A ++ [f], f :: P, ?_, ?_, ?_, ?_, ?_, ?_⟩
    · unfold generateXsd
      rw [e]
      simp only [Except.bind]
      rw [if_neg (relText_ne hpr)]
      have : Q.map (relText (rooted base)) ++ [relText (rooted base) f] = (Q ++ [f]).map (relText (rooted base)) := by simp
      rw [this, e2]
      simp [Except.map, codeOf, hf]
    · exact (ad.perm.cons f).trans (List.perm_append_singleton f A).symm
    · have := ad.nodup
      simpa using this
    · simp
    · intro x hx
      refine ⟨f, by simp, ?_⟩
      rcases List.mem_append.1 hx with hx | hx
      · obtain ⟨g, hg, hl⟩ := ad.from_ x hx
        exact Leads.trans (.via (.self f) ((hmem g).1 hg)) hl
      · simp only [List.mem_singleton] at hx
        rw [hx]
        exact .self f
    · intro x hx y hy
      have eq : Q ++ f :: P = Q ++ [f] ++ P := by simp
      rw [eq]
      rcases List.mem_append.1 hx with hxA | hx
      · obtain ⟨a, b⟩ := ad.closed x hxA y hy
        refine ⟨a, ?_⟩
        rcases b with b | b | b
        · rcases List.mem_append.1 b with b | b
          · exact .inl b
          · simp only [List.mem_singleton] at b
            subst b
            obtain ⟨g, hg, hl⟩ := ad.from_ x hxA
            exact .inr (.inr (Leads.trans (.via (.self _) ((hmem g).1 hg)) hl))
        · exact .inr (.inl b.left)
        · exact .inr (.inr b)
      · simp only [List.mem_singleton] at hx
        subst hx
        have := ad.roots y ((hmem y).2 hy)
        refine ⟨this, ?_⟩
        rcases List.mem_append.1 this with h | h
        · rcases List.mem_append.1 h with h | h
          · exact .inl h
          · simp only [List.mem_singleton] at h
            subst h
            exact .inr (.inr (.self _))
        · exact .inr (.inl (before_append (ad.perm.subset h) (by simp)))

end

/-- C78: XSD documents in any directories that include or import each other, possibly in circles. Code generation for a
root document in the directory `base` ends, given room for as many nested calls as there are files (and two more). The
code is that of the files reached from the root document, each exactly once, and then the code of the root document; a
file comes after the files it includes, unless it is itself included by them. -/
theorem C78_includes (wd base : Str) (urljoin : Str → Str → Str) (read : Str → Except Exn XsdFile)
    (files : List Str → Option XsdFile) (U : List (List Str)) (root : XsdFile) (b : List Str) (n : Nat)
    (hdir : Directory base) (hurl : ¬ IsUrl base) (hb : StandsFor [] base b)
    (hread : ∀ p f doc, Absolute p → StandsFor [] p f → files f = some doc → read p = .ok doc)
    (hU : ∀ f, (files f).isSome → f ∈ U)
    (hnames : ∀ f, (files f).isSome → ∀ x ∈ f, x ≠ [] ∧ x ≠ py"." ∧ x ≠ py".." ∧ '/' ∉ x)
    (hgood : ∀ f doc, files f = some doc → GoodLocations files b f.dropLast doc) (hroot : GoodLocations files b b root)
    (hn : U.length + 1 < n) :
    ∃ out L, (generateXsd wd urljoin read base n base [] [] root).map (·.1) = .ok (out ++ [root.code]) ∧
      (∃ docs : List XsdFile, L.map files = docs.map some ∧ out = docs.map (·.code)) ∧ L.Nodup ∧
      (∀ f, f ∈ L ↔ ∃ g, RefersToFile b root g ∧ Leads files g f) ∧
      ∀ f ∈ L, ∀ g, Includes files f g → g ∈ L ∧ (Before L g f ∨ Leads files g f) := by
  have hbr := rooted_of_stands hdir.1 hb
  subst hbr
  have G : GoodFiles base read files := ⟨hdir, hurl, hread, hnames, hgood⟩
  cases n with
  | zero => omega
  | succ n =>
    obtain ⟨ls', e, he⟩ := rewritePaths_ok (wd := wd) (urljoin := urljoin) hdir hdir hurl (ls := root.locations)
      fun l hl => (hroot l hl).1
    have hgs : ∀ g ∈ targets (rooted base) root.locations, (files g).isSome ∧ ¬ g <+: rooted base := by
      intro g hg
      obtain ⟨l, hl, hs⟩ := targets_mem.1 hg
      exact (hroot l hl).2 g hs
    obtain ⟨A, P, e2, ad⟩ := include_loop (urljoin := urljoin) (wd := wd) G (n := n) (U := U)
      (fun f doc cwd Q => generate_file G hU f doc cwd Q) he hgs [] [] (by simp) (by simp)
      (Nat.lt_of_le_of_lt (List.length_filter_le _ _) (by omega))
    have some_ : ∀ x ∈ A, (files x).isSome := by
      intro x hx
      obtain ⟨g, hg, hl⟩ := ad.from_ x hx
      cases hl with
      | self => exact (hgs _ hg).1
      | via _ h =>
        obtain ⟨d', hd', l', hl', hs⟩ := h
        exact ((G.good _ d' hd') l' hl').2 _ hs |>.1
    refine ⟨A.map (codeOf files), A, ?_, ?_, ?_, ?_, ?_⟩
    · unfold generateXsd
      rw [e]
      simp only [Except.bind, if_true]
      have : ([] : List Str) = ([] : List (List Str)).map (relText (rooted base)) := rfl
      rw [this, e2]
      simp [Except.map]
    · clear e2 ad
      induction A with
      | nil => exact ⟨[], rfl, rfl⟩
      | cons x A ih =>
        obtain ⟨docs, h1, h2⟩ := ih fun y hy => some_ y (by simp [hy])
        obtain ⟨doc, hd⟩ := Option.isSome_iff_exists.1 (some_ x (by simp))
        exact ⟨doc :: docs, by simp [h1, hd], by simp [h2, codeOf, hd]⟩
    · exact (ad.perm.nodup_iff).1 (by simpa using ad.nodup)
    · intro f
      constructor
      · intro hf
        obtain ⟨g, hg, hl⟩ := ad.from_ f hf
        exact ⟨g, targets_mem.1 hg, hl⟩
      · rintro ⟨g, hg, hl⟩
        induction hl with
        | self =>
          have := ad.roots _ (targets_mem.2 hg)
          exact ad.perm.subset (by simpa using this)
        | via _ h ih =>
          have := (ad.closed _ ih _ h).1
          exact ad.perm.subset (by simpa using this)
    · intro f hf g hg
      obtain ⟨h1, h2⟩ := ad.closed f hf g hg
      refine ⟨ad.perm.subset (by simpa using h1), ?_⟩
      rcases h2 with h2 | h2
      · simp at h2
      · exact h2

/-- C78: a root document that is itself reached from the documents it includes is generated twice: its own location is
not among the known ones. -/
theorem C78_root_twice (wd base : Str) (urljoin : Str → Str → Str) (read : Str → Except Exn XsdFile)
    (files : List Str → Option XsdFile) (U : List (List Str)) (root : XsdFile) (b : List Str) (n : Nat)
    (hdir : Directory base) (hurl : ¬ IsUrl base) (hb : StandsFor [] base b)
    (hread : ∀ p f doc, Absolute p → StandsFor [] p f → files f = some doc → read p = .ok doc)
    (hU : ∀ f, (files f).isSome → f ∈ U)
    (hnames : ∀ f, (files f).isSome → ∀ x ∈ f, x ≠ [] ∧ x ≠ py"." ∧ x ≠ py".." ∧ '/' ∉ x)
    (hgood : ∀ f doc, files f = some doc → GoodLocations files b f.dropLast doc) (hroot : GoodLocations files b b root)
    (hn : U.length + 1 < n) (name : Str) (hself : files (b ++ [name]) = some root) (g : List Str) (hg : RefersToFile b root g)
    (hl : Leads files g (b ++ [name])) :
    ∃ out1 out2, (generateXsd wd urljoin read base n base [] [] root).map (·.1) = .ok (out1 ++ root.code :: out2 ++ [root.code]) := by
  obtain ⟨out, L, h1, ⟨docs, hd, rfl⟩, _, h4, _⟩ := C78_includes wd base urljoin read files U root b n hdir hurl hb hread hU hnames hgood hroot hn
  have hm : b ++ [name] ∈ L := (h4 _).2 ⟨g, hg, hl⟩
  have : some root ∈ L.map files := List.mem_map.2 ⟨_, hm, hself⟩
  rw [hd, List.mem_map] at this
  obtain ⟨d, hdm, e⟩ := this
  injection e with e
  subst e
  obtain ⟨x, y, rfl⟩ := List.append_of_mem hdm
  exact ⟨x.map (·.code), y.map (·.code), by rw [h1]; simp⟩

/-! ### Examples -/

/-- Documents in two directories that include each other: `a` (the root, in /w) includes sub/b and sub/c, both of which
include ../d and each other, and c includes ../a. -/
example : let a : XsdFile := ⟨[some py"sub/b.xsd", none, some py"sub/c.xsd"], 1⟩
    let b : XsdFile := ⟨[some py"../d.xsd", some py"c.xsd"], 2⟩
    let c : XsdFile := ⟨[some py"./b.xsd", some py"/w/sub/../d.xsd", some py"../a.xsd"], 3⟩
    let d : XsdFile := ⟨[], 4⟩
    let read : Str → Except Exn XsdFile := fun p =>
      if normPath p = py"/w/a.xsd" then .ok a else if normPath p = py"/w/sub/b.xsd" then .ok b
      else if normPath p = py"/w/sub/c.xsd" then .ok c else if normPath p = py"/w/d.xsd" then .ok d else .error (.user 0)
    (generateXsd py"/" (fun _ l => l) read py"/w" 7 py"/w" [] [] a).map (·.1) = .ok [4, 1, 3, 2, 1] := by
  decide +kernel

end Soapfish
