import Verif.Remote
import Verif.Spec.Remote
import Verif.Props.Main
import Verif.Props.Files
import Verif.Props.Endpoint
/-
XSD documents on web servers (soapfish/xsd2py.py:20-37, soapfish/utils.py:19-27).
-/
namespace Soapfish

/-! ### Joining URLs -/

theorem slashed_append (a b : List Str) : slashed (a ++ b) = slashed a ++ slashed b := by
  induction a with
  | nil => rfl
  | cons x a ih => simp only [List.cons_append, slashed, ih, List.append_assoc]

theorem slashed_join {l : List Str} (h : l ≠ []) : slashed l = '/' :: ['/'].intercalate l := by
  induction l with
  | nil => exact absurd rfl h
  | cons x l ih =>
    cases l with
    | nil => simp [slashed, List.intercalate]
    | cons y l =>
      have := ih (by simp)
      unfold slashed
      rw [this]
      simp [List.intercalate, List.intersperse]

theorem split_slashed {l : List Str} (h : ∀ x ∈ l, '/' ∉ x) : splitOn '/' (slashed l) = [] :: l := by
  induction l with
  | nil => rfl
  | cons x l ih =>
    have hl := ih fun y hy => h y (by simp [hy])
    have hx := h x (by simp)
    have e : splitOn '/' (slashed (x :: l)) = [] :: splitOn '/' (x ++ slashed l) := by
      show splitOn '/' ('/' :: (x ++ slashed l)) = _
      simp [splitOn]
    rw [e]
    congr 1
    cases l with
    | nil => simpa [slashed] using splitOn_plain hx
    | cons y l =>
      show splitOn '/' (x ++ '/' :: (y ++ slashed l)) = _
      rw [splitOn_cons '/' x _ hx]
      have e2 : splitOn '/' (slashed (y :: l)) = [] :: splitOn '/' (y ++ slashed l) := by
        show splitOn '/' ('/' :: (y ++ slashed l)) = _
        simp [splitOn]
      rw [e2] at hl
      injection hl with _ hl
      rw [hl]

theorem cut_none {c : Char} {s : Str} (h : c ∉ s) : cutAt c s = (s, []) := by
  have := cutAt_written (o := none) h
  simpa [written] using this

theorem lastSlash_append (p : Str) : (lastSlash p).1 ++ (lastSlash p).2 = p := by
  induction p with
  | nil => rfl
  | cons c p ih =>
    unfold lastSlash
    split
    · simp [ih]
    · rfl

theorem splitParams_none {p : Str} (h : ';' ∉ p) : splitParams p = (p, []) := by
  unfold splitParams
  have : ';' ∉ (lastSlash p).2 := fun hc => h (lastSlash_append p ▸ List.mem_append.2 (.inr hc))
  rw [cut_none this]
  simp [lastSlash_append]

/-- The parts of the URL of a directory. -/
theorem parse_site {s h : Str} (hs : Site s h) {D : List Str} (hD : ∀ x ∈ D, UrlName x) (ok : Str → Bool) :
    urlparseFrom ok [] (webText s h D) = .ok { scheme := s, netloc := h, path := slashed D } := by
  have hchars : ∀ c ∈ slashed D, c ≠ '?' ∧ c ≠ '#' ∧ c ≠ ';' ∧ 0x20 < c.toNat := by
    clear hs
    induction D with
    | nil => intro c hc; cases hc
    | cons x D ih =>
      intro c hc
      unfold slashed at hc
      rcases List.mem_cons.1 hc with rfl | hc
      · decide
      rcases List.mem_append.1 hc with hc | hc
      · exact (hD x (by simp)).2.2.2 c hc |>.2
      · exact ih (fun y hy => hD y (by simp [hy])) c hc
  have ha : ({ scheme := s, host := h, path := slashed D } : WebAddress).Ok := by
    refine ⟨hs.isWeb, fun c hc => ?_, ?_, fun c hc => ⟨(hchars c hc).1, (hchars c hc).2.1⟩, ?_, ?_, ?_, ?_⟩
    · obtain ⟨a, b, c, d, e, _, f⟩ := hs.chars c hc
      exact ⟨a, b, c, d, e, f⟩
    · cases D with
      | nil => exact .inl rfl
      | cons x D => exact .inr ⟨_, rfl⟩
    · intro a b e
      exact absurd rfl (hchars ';' (by show ';' ∈ slashed D; rw [show slashed D = a ++ ';' :: b from e]; simp)).2.2.1
    · intro _ e; cases e
    · intro _ e; cases e
    · intro c hc
      have : c.toNat ≠ 9 ∧ c.toNat ≠ 13 ∧ c.toNat ≠ 10 := by
        have hgt : 0x20 < c.toNat := by
          unfold WebAddress.text WebAddress.rest at hc
          simp only [written, List.append_nil, List.mem_append] at hc
          rcases hc with ((hc | hc) | hc) | hc
          · rcases hs.isWeb with e | e <;> rw [e] at hc <;> revert c <;> decide
          · revert c; decide
          · exact (hs.chars c hc).2.2.2.2.2.1
          · exact (hchars c hc).2.2.2
        omega
      refine ⟨?_, ?_, ?_⟩ <;> rintro rfl <;> simp at this
  have := urlparse_eq ok _ ha
  have e : WebAddress.text { scheme := s, host := h, path := slashed D } = webText s h D := by
    simp [WebAddress.text, WebAddress.rest, written, webText]
  rw [e] at this
  unfold urlparse at this
  unfold urlparseFrom
  have hne : s ≠ [] := by rcases hs.isWeb with e | e <;> rw [e] <;> decide
  simp only at this ⊢
  cases hc : checkNetloc ok (splitNetloc (splitScheme (cleanUrl (webText s h D))).2).1 with
  | error e => rw [hc] at this; cases this
  | ok u =>
    rw [hc] at this
    have h' : (Except.ok _ : Except Exn Url) = .ok _ := this
    injection h' with h'
    have hsch : (splitScheme (cleanUrl (webText s h D))).1 = s := congrArg Url.scheme h'
    rw [hsch] at h' ⊢
    simp only [if_neg hne]
    exact congrArg Except.ok h'

theorem no_url {l : Str} (h : ':' ∉ l) : ¬ IsUrl l := by
  rintro ⟨a, b, rfl⟩
  exact h (by simp)

/-- The parts of a relative reference. -/
theorem parse_relative {l : Str} (h : Relative l) {s : Str} (hs : s = py"http" ∨ s = py"https") (ok : Str → Bool) :
    urlparseFrom ok s l = .ok { scheme := s, path := l } := by
  obtain ⟨hc, parts, hj, ht, hl⟩ := h
  have hclean : cleanUrl l = l := by
    refine cleanUrl_eq ?_ ?_
    · rintro c r rfl
      exact (hc c (by simp)).2.2.2.2
    · intro c hm
      have := (hc c hm).2.2.2.2
      refine ⟨?_, ?_, ?_⟩ <;> rintro rfl <;> simp at this
  have hsch : splitScheme l = ([], l) := by
    unfold splitScheme
    have : upTo (· = ':') l = (l, []) := by
      have := upTo_append (stop := (· = ':')) (s := l) (t := []) (fun c hm => by simp [(hc c hm).1]) (.inl rfl)
      simpa using this
    rw [this]
    cases l <;> rfl
  have hnet : splitNetloc l = ([], l) := by
    unfold splitNetloc
    split
    · rename_i rest
      rw [joined_iff] at hj
      have e : splitOn '/' ('/' :: '/' :: rest) = [] :: [] :: splitOn '/' rest := by simp [splitOn]
      rw [e] at hj
      rw [hj] at ht
      exact absurd rfl (ht [] (by simp))
    · rfl
  have hu : s ∈ usesParams := by rcases hs with e | e <;> rw [e] <;> decide
  unfold urlparseFrom
  simp only [hclean, hsch, hnet, if_true, cut_none (c := '#') (s := l) fun hm => (hc _ hm).2.2.1 rfl,
    cut_none (c := '?') (s := l) fun hm => (hc _ hm).2.1 rfl, if_pos hu, splitParams_none (p := l) fun hm => (hc _ hm).2.2.2.1 rfl]
  have : checkNetloc ok [] = .ok () := by unfold checkNetloc; simp
  rw [this]
  rfl

/-- Going along segments that are not empty, `urljoin` keeps the names of the file, perhaps with an empty one in front. -/
theorem url_walk {segs : List Str} (h : ∀ x ∈ segs, x ≠ []) {R f : List Str} (hR : R = f ∨ R = [] :: f) :
    segs.foldl urlStep R = segs.foldl goTo f ∨ segs.foldl urlStep R = [] :: segs.foldl goTo f := by
  induction segs generalizing R f with
  | nil => exact hR
  | cons x segs ih =>
    have hx := h x (by simp)
    refine ih (fun y hy => h y (by simp [hy])) ?_
    unfold urlStep goTo
    by_cases h1 : x = py".."
    · rw [if_pos h1, if_neg (by rw [h1]; decide), if_pos h1]
      rcases hR with rfl | rfl
      · exact .inl rfl
      · cases f with
        | nil => exact .inl rfl
        | cons y f => exact .inr rfl
    · rw [if_neg h1]
      by_cases h2 : x = py"."
      · rw [if_pos h2, if_pos (.inr h2)]; exact hR
      · rw [if_neg h2, if_neg (by simp [hx, h2]), if_neg h1]
        rcases hR with rfl | rfl
        · exact .inl rfl
        · exact .inr rfl

theorem walk_names {segs : List Str} {f : List Str} {P : Str → Prop} (hs : ∀ x ∈ segs, P x) (hf : ∀ x ∈ f, P x) :
    ∀ x ∈ segs.foldl goTo f, P x := by
  induction segs generalizing f with
  | nil => exact hf
  | cons y segs ih =>
    refine ih (fun x hx => hs x (by simp [hx])) ?_
    intro x hx
    unfold goTo at hx
    split at hx
    · exact hf x hx
    split at hx
    · exact hf x (List.mem_of_mem_dropLast hx)
    · rcases List.mem_append.1 hx with hx | hx
      · exact hf x hx
      · rw [List.mem_singleton.1 hx]; exact hs y (by simp)

theorem walk_proper {D f : List Str} (h : ∀ x ∈ D, UrlName x) : D.foldl goTo f = f ++ D := by
  induction D generalizing f with
  | nil => simp
  | cons x D ih =>
    have hx := h x (by simp)
    rw [List.foldl_cons, ih fun y hy => h y (by simp [hy]), show goTo f x = f ++ [x] by
      unfold goTo; rw [if_neg (by simp [hx.1, hx.2.1]), if_neg hx.2.2.1]]
    simp

theorem dropEmptyMiddle_eq {x : Str} {l : List Str} (h : ∀ y ∈ l, y ≠ []) : dropEmptyMiddle (x :: l) = x :: l := by
  cases l with
  | nil => rfl
  | cons y l =>
    show x :: ((y :: l).dropLast.filter (· ≠ []) ++ [(y :: l).getLast (by simp)]) = _
    rw [List.filter_eq_self.2, List.dropLast_append_getLast]
    intro z hz
    simp [h z (List.mem_of_mem_dropLast hz)]

/-- The text of what has been resolved. -/
theorem resolved_text {s h : Str} (hs : s = py"http" ∨ s = py"https") {R f : List Str} (hR : R = f ∨ R = [] :: f) (hf : f ≠ [])
    (hn : ∀ x ∈ f, x ≠ [] ∧ '/' ∉ x) :
    urlJoinParts { scheme := s, netloc := h, path := if ['/'].intercalate R = [] then py"/" else ['/'].intercalate R } = webText s h f := by
  have hne : s ≠ [] := by rcases hs with e | e <;> rw [e] <;> decide
  have hu : s ∈ usesNetloc := by rcases hs with e | e <;> rw [e] <;> decide
  have hslash := slashed_join hf
  have key : (if (if ['/'].intercalate R = [] then py"/" else ['/'].intercalate R) ≠ [] ∧
      (if ['/'].intercalate R = [] then py"/" else ['/'].intercalate R).head? ≠ some '/' then
      '/' :: (if ['/'].intercalate R = [] then py"/" else ['/'].intercalate R)
      else (if ['/'].intercalate R = [] then py"/" else ['/'].intercalate R)) = slashed f := by
    rw [hslash]
    rcases hR with rfl | rfl
    · obtain ⟨y, l, rfl⟩ := List.exists_cons_of_ne_nil hf
      obtain ⟨c, y', rfl⟩ := List.exists_cons_of_ne_nil (hn y (by simp)).1
      have hc : c ≠ '/' := fun e => (hn (c :: y') (by simp)).2 (by rw [e]; simp)
      have : ∃ t, ['/'].intercalate ((c :: y') :: l) = c :: t := by
        cases l <;> simp [List.intercalate, List.intersperse]
      obtain ⟨t, ht⟩ := this
      rw [ht]
      simp [hc]
    · obtain ⟨y, l, rfl⟩ := List.exists_cons_of_ne_nil hf
      have : ['/'].intercalate ([] :: y :: l) = '/' :: ['/'].intercalate (y :: l) := by
        simp [List.intercalate, List.intersperse]
      rw [this]
      simp
  unfold urlJoinParts
  simp only [delimited, if_true, List.append_nil]
  rw [key, if_neg hne, if_pos (.inr (.inl ⟨hne, hu⟩))]
  unfold webText
  simp

/-- **C122 (references).** `urljoin` of the URL of a directory, written without a slash at the end, and a relative reference starts
from the directory above it; from the root of the host if there is none above. -/
theorem C122_join {s h : Str} (hs : Site s h) {D : List Str} (hD : ∀ x ∈ D, UrlName x) {l : Str} (hl : Relative l) {f : List Str}
    (hf : StandsFor D.dropLast l f) (ok : Str → Bool) : urljoin ok (webText s h D) l = .ok (webText s h f) := by
  have hp1 := parse_site hs hD ok
  have hp2 := parse_relative hl hs.isWeb ok
  obtain ⟨hc, parts, hj, ht, hlast⟩ := hl
  obtain ⟨parts', hj', hf⟩ := hf
  rw [joined_iff] at hj hj'
  obtain rfl : parts = parts' := hj.trans hj'.symm
  have hne : parts ≠ [] := hj ▸ splitOn_ne l
  obtain ⟨init, last, rfl⟩ : ∃ init last, parts = init ++ [last] := ⟨_, _, (List.dropLast_append_getLast hne).symm⟩
  have hname := hlast last (by simp)
  have hsl : ∀ x ∈ init ++ [last], '/' ∉ x := hj ▸ splitOn_sep l
  have hlne : l ≠ [] := by
    rintro rfl
    have : init ++ [last] = [[]] := hj
    rcases init with _ | ⟨a, init⟩
    · injection this with e; exact hname.1 e
    · simp at this
  have hbne : webText s h D ≠ [] := by
    unfold webText
    rcases hs.isWeb with e | e <;> rw [e] <;> simp
  have hrel : s ∈ usesRelative := by rcases hs.isWeb with e | e <;> rw [e] <;> decide
  have hnet : s ∈ usesNetloc := by rcases hs.isWeb with e | e <;> rw [e] <;> decide
  -- what the walk gives
  have hwalk : ∀ (segs : List Str) (R : List Str), segs.foldl urlStep [] = R → (R = f ∨ R = [] :: f) →
      segs.getLast? = some last → urlSegments (slashed D) l = segs →
      urljoin ok (webText s h D) l = .ok (webText s h f) := by
    intro segs R hR1 hR2 hl1 hsegs
    have hfne : f ≠ [] ∧ ∀ x ∈ f, x ≠ [] ∧ '/' ∉ x := by
      rw [hf, List.foldl_append]
      constructor
      · simp only [List.foldl_cons, List.foldl_nil]
        rw [show ∀ d, goTo d last = d ++ [last] from fun d => by
          unfold goTo; rw [if_neg (by simp [hname.1, hname.2.1]), if_neg hname.2.2.1]]
        simp
      · rw [← List.foldl_append]
        intro x hx
        have hall := walk_names (segs := init ++ [last]) (P := fun x => '/' ∉ x) hsl
          (f := if l.head? = some '/' then [] else D.dropLast) (by
            intro y hy
            split at hy
            · cases hy
            · exact fun hm => ((hD y (List.mem_of_mem_dropLast hy)).2.2.2 _ hm).1 rfl) x hx
        refine ⟨?_, hall⟩
        have : ∀ (segs : List Str) (g : List Str), (∀ x ∈ g, x ≠ []) → ∀ x ∈ segs.foldl goTo g, x ≠ [] := by
          intro segs
          induction segs with
          | nil => exact fun g hg => hg
          | cons y segs ih =>
            intro g hg
            refine ih _ ?_
            intro x hx
            unfold goTo at hx
            split at hx
            · exact hg x hx
            split at hx
            · exact hg x (List.mem_of_mem_dropLast hx)
            · rename_i h1 _
              rcases List.mem_append.1 hx with hx | hx
              · exact hg x hx
              · rw [List.mem_singleton.1 hx]; exact fun e => h1 (.inl e)
        refine this _ _ ?_ x hx
        intro y hy
        split at hy
        · cases hy
        · exact (hD y (List.mem_of_mem_dropLast hy)).1
    unfold urljoin
    rw [if_neg hbne, if_neg hlne, hp1]
    show (urlparseFrom ok s l).bind _ = _
    rw [hp2]
    show (if _ then _ else _) = _
    rw [if_neg (by simp [hrel]), if_neg (by simp), if_pos hnet, if_neg (by simp [hlne])]
    have hdots : ¬ (some last = some py"." ∨ some last = some py"..") := by
      rintro (e | e)
      · exact hname.2.1 (Option.some.inj e)
      · exact hname.2.2.1 (Option.some.inj e)
    simp only [hsegs, hl1, if_neg hdots, hR1]
    exact congrArg Except.ok (resolved_text hs.isWeb hR2 hfne.1 hfne.2)
  by_cases hh : l.head? = some '/'
  · -- an absolute path
    rw [if_pos hh] at hf
    obtain ⟨r, rfl⟩ : ∃ r, l = '/' :: r := by
      cases l with
      | nil => cases hh
      | cons c r => injection hh with hh; exact ⟨r, by rw [hh]⟩
    have e : splitOn '/' ('/' :: r) = [] :: splitOn '/' r := by simp [splitOn]
    rw [e] at hj
    have ht' : ∀ x ∈ splitOn '/' r, x ≠ [] := by rw [hj] at ht; exact ht
    refine hwalk (init ++ [last]) _ rfl ?_ (by simp) ?_
    · rw [hf, hj]
      show (splitOn '/' r).foldl urlStep [[]] = (splitOn '/' r).foldl goTo [] ∨ (splitOn '/' r).foldl urlStep [[]] = [] :: (splitOn '/' r).foldl goTo []
      exact url_walk ht' (.inr rfl)
    · unfold urlSegments
      rw [if_pos hh, e, hj]
  · rw [if_neg hh] at hf
    have hall : ∀ x ∈ init ++ [last], x ≠ [] := by
      intro x hx
      rcases hinit : init ++ [last] with _ | ⟨y, l'⟩
      · simp at hinit
      · rw [hinit] at hx
        rcases List.mem_cons.1 hx with rfl | hx
        · rintro rfl
          rw [hinit] at hj
          cases hr : l with
          | nil => exact hlne hr
          | cons c r =>
            rw [hr] at hj hh
            unfold splitOn at hj
            split at hj
            · rename_i e; rw [e] at hh; exact hh rfl
            · split at hj
              · injection hj with hj _; cases hj
              · injection hj with hj _; cases hj
        · exact ht x (by rw [hinit]; exact hx)
    have hDn : ∀ x ∈ D.dropLast, UrlName x := fun x hx => hD x (List.mem_of_mem_dropLast hx)
    have hseg : urlSegments (slashed D) l = [] :: (D.dropLast ++ (init ++ [last])) := by
      unfold urlSegments
      rw [if_neg hh, split_slashed fun x hx hm => ((hD x hx).2.2.2 _ hm).1 rfl]
      rw [← hj]
      show dropEmptyMiddle ((if ([] :: D).getLast? = some [] then [] :: D else ([] :: D).dropLast) ++ (init ++ [last])) = _
      have : (if ([] :: D).getLast? = some [] then [] :: D else ([] :: D).dropLast) = [] :: D.dropLast := by
        cases D using List.reverseRecOn with
        | nil => rfl
        | append_singleton D0 x _ =>
          rw [if_neg, List.dropLast_concat, ← List.cons_append, List.dropLast_concat]
          rw [← List.cons_append, List.getLast?_concat]
          intro e
          injection e with e
          exact (hD x (by simp)).1 e
      rw [this, List.cons_append]
      exact dropEmptyMiddle_eq fun x hx => by
        rcases List.mem_append.1 hx with hx | hx
        · exact (hDn x hx).1
        · exact hall x hx
    refine hwalk _ _ rfl ?_ ?_ hseg
    · rw [hf]
      show ((D.dropLast ++ (init ++ [last])).foldl urlStep [[]] = _) ∨ ((D.dropLast ++ (init ++ [last])).foldl urlStep [[]] = _)
      have := url_walk (segs := D.dropLast ++ (init ++ [last])) (R := [[]]) (f := []) (fun x hx => by
        rcases List.mem_append.1 hx with hx | hx
        · exact (hDn x hx).1
        · exact hall x hx) (.inr rfl)
      rw [show (D.dropLast ++ (init ++ [last])).foldl goTo [] = (init ++ [last]).foldl goTo D.dropLast by
        rw [List.foldl_append, walk_proper hDn]; rfl] at this
      exact this
    · rw [← List.append_assoc, ← List.cons_append, List.getLast?_concat]

/-! ### The documents that are asked for -/

theorem webText_url (s h : Str) (f : List Str) : IsUrl (webText s h f) := ⟨s, h ++ slashed f, by simp [webText]⟩

theorem relative_not_url {l : Str} (h : Relative l) : ¬ IsUrl l := no_url fun hc => (h.1 _ hc).1 rfl

theorem stands_exists (d : List Str) (l : Str) : ∃ f, StandsFor d l f := ⟨_, stands_iff.2 rfl⟩

theorem refers_unique {s h : Str} {dir : List Str} {l u u' : Str} (h1 : RefersFrom s h dir l u) (h2 : RefersFrom s h dir l u') : u = u' := by
  rcases h1 with ⟨h1, rfl⟩ | ⟨h1, f, hf, rfl⟩ <;> rcases h2 with ⟨h2, rfl⟩ | ⟨h2, g, hg, rfl⟩
  · rfl
  · exact absurd h1 (relative_not_url h2)
  · exact absurd h2 (relative_not_url h1)
  · rw [stands_iff] at hf hg
    rw [hf, hg]

theorem resolve_url (wd base : Str) {u : Str} (h : IsUrl u) : resolveLocation wd u base = .ok (u, base, u) := by
  rw [isUrl_iff] at h
  unfold resolveLocation
  rw [if_pos h]

theorem url_ne {u : Str} (h : IsUrl u) : u ≠ [] := by
  rintro rfl
  obtain ⟨a, b, e⟩ := h
  simp at e

section
variable {wd s h : Str} {D : List Str} {join : Str → Str → Str} {ok netlocOk : Str → Bool} {digest : Str → Str}
  {read read' : Str → Except Exn DFile}

theorem rewrite_remote (hs : Site s h) (hD : ∀ x ∈ D, UrlName x) (hj : ∀ b l r, urljoin ok b l = .ok r → join b l = r) {base : Str}
    {ls : List (Option Str)} (hu : ∀ l, some l ∈ ls → IsUrl l ∨ Relative l) :
    ∃ ls', rewritePaths wd join (webText s h D) base ls = .ok ls' ∧
      (∀ u, some u ∈ ls' → IsUrl u ∧ ∃ l, some l ∈ ls ∧ RefersFrom s h D.dropLast l u) ∧
      ∀ l, some l ∈ ls → ∃ u, some u ∈ ls' ∧ RefersFrom s h D.dropLast l u := by
  induction ls with
  | nil => exact ⟨[], rfl, by simp, by simp⟩
  | cons o ls ih =>
    obtain ⟨ls', e, h1, h2⟩ := ih fun l hl => hu l (by simp [hl])
    have kept := C74_kept wd join (webText s h D) base
    cases o with
    | none =>
      refine ⟨none :: ls', ?_, ?_, ?_⟩
      · unfold rewritePaths
        rw [kept.1, e]; rfl
      · intro u hm
        obtain ⟨a, l, b, c⟩ := h1 u (by simpa using hm)
        exact ⟨a, l, by simp [b], c⟩
      · intro l hm
        obtain ⟨u, a, b⟩ := h2 l (by simpa using hm)
        exact ⟨u, by simp [a], b⟩
    | some l =>
      obtain ⟨u, hr, hiu, hru⟩ : ∃ u, rewriteLocation wd join (webText s h D) base (some l) = .ok (some u) ∧ IsUrl u ∧
          RefersFrom s h D.dropLast l u := by
        rcases hu l (by simp) with hl | hl
        · exact ⟨l, kept.2.1 l hl, hl, .inl ⟨hl, rfl⟩⟩
        · obtain ⟨f, hf⟩ := stands_exists D.dropLast l
          refine ⟨webText s h f, ?_, webText_url .., .inr ⟨hl, f, hf, rfl⟩⟩
          rw [kept.2.2 l (relative_not_url hl) (webText_url ..), hj _ _ _ (C122_join hs hD hl hf ok)]
      refine ⟨some u :: ls', ?_, ?_, ?_⟩
      · unfold rewritePaths
        rw [hr, e]; rfl
      · intro v hm
        rcases List.mem_cons.1 hm with hm | hm
        · injection hm with hm
          subst hm
          exact ⟨hiu, l, by simp, hru⟩
        · obtain ⟨a, l', b, c⟩ := h1 v hm
          exact ⟨a, l', by simp [b], c⟩
      · intro l' hm
        rcases List.mem_cons.1 hm with hm | hm
        · injection hm with hm
          subst hm
          exact ⟨u, by simp, hru⟩
        · obtain ⟨v, a, b⟩ := h2 l' hm
          exact ⟨v, by simp [a], b⟩

theorem loop_same {base : Str} {S : Str → Prop} (hS : ∀ u, S u → read u = read' u)
    {nested nested' : Str → List Str → List Str → Str → DFile → Except Exn (List FileCode × List Str × List Str)}
    (hn : ∀ known types u d, S u → read u = .ok d → nested base known types u d = nested' base known types u d)
    {ls : List (Option Str)} (hls : ∀ u, some u ∈ ls → IsUrl u ∧ S u) (out : List FileCode) (known types : List Str) :
    filesLoop wd read base nested ls out known types = filesLoop wd read' base nested' ls out known types := by
  induction ls generalizing out known types with
  | nil => rfl
  | cons o ls ih =>
    have ih := fun out known types => ih (fun u hu => hls u (by simp [hu])) out known types
    cases o with
    | none => exact ih ..
    | some u =>
      obtain ⟨hu, hSu⟩ := hls u (by simp)
      unfold filesLoop
      rw [if_neg (url_ne hu), if_neg (url_ne hu), resolve_url wd base hu]
      show (read u).bind _ = (read' u).bind _
      rw [← hS u hSu]
      cases hr : read u with
      | error e => rfl
      | ok d =>
        show (if _ then _ else _) = (if _ then _ else _)
        rw [ih]
        split
        · rfl
        · show (nested base known types u d).bind _ = (nested' base known types u d).bind _
          rw [hn known types u d hSu hr]
          cases nested' base known types u d with
          | error e => rfl
          | ok m => exact ih ..

theorem files_same (hs : Site s h) (hD : ∀ x ∈ D, UrlName x) (hj : ∀ b l r, urljoin ok b l = .ok r → join b l = r)
    {S : Str → Prop} (hS : ∀ u, S u → read u = read' u) (hU : ∀ u d, S u → read u = .ok d → Usable d)
    (hC : ∀ u d l u', S u → read u = .ok d → some l ∈ d.locations → RefersFrom s h D.dropLast l u' → S u')
    (n : Nat) (parent : Option Str) (known types : List Str) (location : Str) (d : DFile) (hd : Usable d)
    (hdS : ∀ l u, some l ∈ d.locations → RefersFrom s h D.dropLast l u → S u) :
    filesCode wd join netlocOk digest read (webText s h D) n parent (webText s h D) known types location d =
    filesCode wd join netlocOk digest read' (webText s h D) n parent (webText s h D) known types location d := by
  induction n generalizing parent known types location d with
  | zero => rfl
  | succ n ih =>
    obtain ⟨ls, e, h1, _⟩ := rewrite_remote (wd := wd) hs hD hj (base := webText s h D) hd
    unfold filesCode
    rw [e]
    show (reorderComplex _ _).bind _ = (reorderComplex _ _).bind _
    congr 1
    funext cts
    rw [loop_same (read' := read') (nested' := filesCode wd join netlocOk digest read' (webText s h D) n none) hS ?_ ?_]
    · intro known types u d hu hr
      exact ih none known types u d (hU u d hu hr) fun l v hl hv => hC u d l v hu hr hl hv
    · intro u hu
      obtain ⟨a, l, b, c⟩ := h1 u hu
      exact ⟨a, hdS l u b c⟩

/-- What is known at the end, and where its documents lead. -/
theorem loop_known {base : Str} {S : Str → Prop} {R : Str → Str → Prop}
    {nested : Str → List Str → List Str → Str → DFile → Except Exn (List FileCode × List Str × List Str)}
    (hn : ∀ known types u d r, IsUrl u → S u → read u = .ok d → nested base known types u d = .ok r →
      (∀ v ∈ known, v ∈ r.2.1) ∧ u ∈ r.2.1 ∧
      ∀ v ∈ r.2.1, v ∈ known ∨ ∃ d, read v = .ok d ∧ ∀ l v', some l ∈ d.locations → R l v' → v' ∈ r.2.1)
    {ls : List (Option Str)} (hls : ∀ u, some u ∈ ls → IsUrl u ∧ S u) (out : List FileCode) (known types : List Str)
    {r : List FileCode × List Str × List Str} (h : filesLoop wd read base nested ls out known types = .ok r) :
    (∀ v ∈ known, v ∈ r.2.1) ∧ (∀ u, some u ∈ ls → u ∈ r.2.1) ∧
      ∀ v ∈ r.2.1, v ∈ known ∨ ∃ d, read v = .ok d ∧ ∀ l v', some l ∈ d.locations → R l v' → v' ∈ r.2.1 := by
  induction ls generalizing out known types with
  | nil =>
    cases h
    exact ⟨fun _ hv => hv, by simp, fun _ hv => .inl hv⟩
  | cons o ls ih =>
    have ih := fun out known types h => ih (fun u hu => hls u (by simp [hu])) out known types h
    cases o with
    | none =>
      obtain ⟨a, b, c⟩ := ih out known types h
      exact ⟨a, fun u hu => b u (by simpa using hu), c⟩
    | some u =>
      obtain ⟨hu, hSu⟩ := hls u (by simp)
      unfold filesLoop at h
      rw [if_neg (url_ne hu), resolve_url wd base hu] at h
      have h : (read u).bind _ = .ok r := h
      cases hr : read u with
      | error e => rw [hr] at h; cases h
      | ok d =>
        rw [hr] at h
        have h : (if u ≠ [] ∧ u ∈ known then _ else _) = Except.ok r := h
        split at h
        · rename_i hk
          obtain ⟨a, b, c⟩ := ih out known types h
          refine ⟨a, fun v hv => ?_, c⟩
          rcases List.mem_cons.1 hv with hv | hv
          · injection hv with hv
            rw [hv]; exact a u hk.2
          · exact b v hv
        · cases hne : nested base known types u d with
          | error e => rw [show nested (u, base, u).2.1 known types (u, base, u).2.2 d = _ from hne] at h; cases h
          | ok m =>
            rw [show nested (u, base, u).2.1 known types (u, base, u).2.2 d = _ from hne] at h
            obtain ⟨a1, b1, c1⟩ := hn known types u d m hu hSu hr hne
            obtain ⟨a, b, c⟩ := ih _ _ _ h
            refine ⟨fun v hv => a v (a1 v hv), fun v hv => ?_, fun v hv => ?_⟩
            · rcases List.mem_cons.1 hv with hv | hv
              · injection hv with hv
                rw [hv]; exact a u b1
              · exact b v hv
            · rcases c v hv with hv | hv
              · rcases c1 v hv with hv | ⟨d', hd', hv⟩
                · exact .inl hv
                · exact .inr ⟨d', hd', fun l v' hl hR => a v' (hv l v' hl hR)⟩
              · exact .inr hv

theorem files_known (hs : Site s h) (hD : ∀ x ∈ D, UrlName x) (hj : ∀ b l r, urljoin ok b l = .ok r → join b l = r)
    {S : Str → Prop} (hU : ∀ u d, S u → read u = .ok d → Usable d)
    (hC : ∀ u d l u', S u → read u = .ok d → some l ∈ d.locations → RefersFrom s h D.dropLast l u' → S u')
    (n : Nat) (parent : Option Str) (known types : List Str) (location : Str) (d : DFile) (hd : Usable d)
    (hdS : ∀ l u, some l ∈ d.locations → RefersFrom s h D.dropLast l u → S u) {r : List FileCode × List Str × List Str}
    (hr : filesCode wd join netlocOk digest read (webText s h D) n parent (webText s h D) known types location d = .ok r) :
    (∀ v ∈ known, v ∈ r.2.1) ∧ (location ≠ [] → location ∈ r.2.1) ∧
      (∀ l u, some l ∈ d.locations → RefersFrom s h D.dropLast l u → u ∈ r.2.1) ∧
      ∀ v ∈ r.2.1, v ∈ known ∨ v = location ∨
        ∃ d, read v = .ok d ∧ ∀ l v', some l ∈ d.locations → RefersFrom s h D.dropLast l v' → v' ∈ r.2.1 := by
  induction n generalizing parent known types location d r with
  | zero => cases hr
  | succ n ih =>
    obtain ⟨ls, e, h1, h2⟩ := rewrite_remote (wd := wd) hs hD hj (base := webText s h D) hd
    unfold filesCode at hr
    rw [e] at hr
    have hr : (reorderComplex _ _).bind _ = Except.ok r := hr
    cases hc : reorderComplex n d.schema.complexTypes with
    | error e => rw [hc] at hr; cases hr
    | ok cts =>
    rw [hc] at hr
    have hr : (filesLoop _ _ _ _ _ _ _ _).bind _ = Except.ok r := hr
    cases hm : filesLoop wd read (webText s h D) (filesCode wd join netlocOk digest read (webText s h D) n none) ls []
      (if location = [] then known else known ++ [location]) types with
    | error e => rw [hm] at hr; cases hr
    | ok m =>
    rw [hm] at hr
    have hr : Except.map _ (fileCode _ _ _ _ _ _ _) = Except.ok r := hr
    have hrk : r.2.1 = m.2.1 := by
      cases hf : fileCode netlocOk digest m.2.2 location ls d.prefixes
        { d.schema with complexTypes := cts, targetNamespace := d.schema.targetNamespace.or parent } with
      | error e => rw [hf] at hr; cases hr
      | ok c => rw [hf] at hr; cases hr; rfl
    rw [hrk]
    obtain ⟨a, b, c⟩ := loop_known (S := S) (R := fun l u => RefersFrom s h D.dropLast l u) (by
      intro known types u d r hurl hu hr hne
      obtain ⟨a, b, c, f⟩ := ih none known types u d (hU u d hu hr) (fun l v hl hv => hC u d l v hu hr hl hv) hne
      refine ⟨a, b (url_ne hurl), fun v hv => ?_⟩
      rcases f v hv with hv | rfl | hv
      · exact .inl hv
      · exact .inr ⟨d, hr, c⟩
      · exact .inr hv) (fun u hu => by
      obtain ⟨a, l, b, c⟩ := h1 u hu
      exact ⟨a, hdS l u b c⟩) _ _ _ hm
    refine ⟨fun v hv => a v ?_, fun hl => a _ ?_, ?_, ?_⟩
    · split
      · exact hv
      · simp [hv]
    · rw [if_neg hl]; simp
    · intro l u hl hu
      obtain ⟨u', hu', hr'⟩ := h2 l hl
      rw [refers_unique hu hr']
      exact b u' hu'
    · intro v hv
      rcases c v hv with hv | hv
      · split at hv
        · exact .inl hv
        · rcases List.mem_append.1 hv with hv | hv
          · exact .inl hv
          · exact .inr (.inl (List.mem_singleton.1 hv))
      · exact .inr (.inr hv)

/-- The URLs that code generation asks for: relative references, wherever they stand, start from the directory above that of the
first document. -/
abbrev Asked (read : Str → Except Exn DFile) (s h : Str) (D : List Str) (root : DFile) : Str → Prop :=
  WebLeads read (RefersFrom s h D.dropLast) (fun _ => RefersFrom s h D.dropLast) root

/-- **C122 (only these).** The code for a document in the directory `D` of a host depends on no other documents than those it leads to,
if relative references in all of them are taken to start from the directory above `D`. -/
theorem C122_only (hs : Site s h) (hD : ∀ x ∈ D, UrlName x) (hj : ∀ b l r, urljoin ok b l = .ok r → join b l = r)
    (root : DFile) (hroot : Usable root) (hU : ∀ u d, Asked read s h D root u → read u = .ok d → Usable d)
    (hS : ∀ u, Asked read s h D root u → read u = read' u) (n : Nat) (parent : Option Str) :
    filesCode wd join netlocOk digest read (webText s h D) n parent (webText s h D) [] [] [] root =
    filesCode wd join netlocOk digest read' (webText s h D) n parent (webText s h D) [] [] [] root :=
  files_same hs hD hj hS hU (fun _ _ _ _ hu hr hl hv => .next hu hr hl hv) n parent [] [] [] root hroot fun _ _ hl hu => .first hl hu

/-- **C122 (all of these).** All of them are needed: unless each can be read, there is no code. -/
theorem C122_all (hs : Site s h) (hD : ∀ x ∈ D, UrlName x) (hj : ∀ b l r, urljoin ok b l = .ok r → join b l = r)
    (root : DFile) (hroot : Usable root) (hU : ∀ u d, Asked read s h D root u → read u = .ok d → Usable d)
    (n : Nat) (parent : Option Str) {r : List FileCode × List Str × List Str}
    (hr : filesCode wd join netlocOk digest read (webText s h D) n parent (webText s h D) [] [] [] root = .ok r) :
    ∀ u, Asked read s h D root u → ∃ d, read u = .ok d := by
  obtain ⟨_, _, c, f⟩ := files_known hs hD hj hU (fun _ _ _ _ hu hr hl hv => .next hu hr hl hv) n parent [] [] [] root hroot
    (fun _ _ hl hu => .first hl hu) hr
  have key : ∀ u, Asked read s h D root u → u ∈ r.2.1 ∧ u ≠ [] := by
    intro u hu
    have hne : ∀ {l u}, RefersFrom s h D.dropLast l u → u ≠ [] := by
      rintro l u (⟨h, rfl⟩ | ⟨_, g, _, rfl⟩)
      · exact url_ne h
      · exact url_ne (webText_url ..)
    induction hu with
    | first hl hu => exact ⟨c _ _ hl hu, hne hu⟩
    | next hu hd hl hv ih =>
      rcases f _ ih.1 with hm | hm | ⟨d', hd', hc⟩
      · cases hm
      · exact absurd hm ih.2
      · rw [hd] at hd'
        cases hd'
        exact ⟨hc _ _ hl hv, hne hv⟩
  intro u hu
  obtain ⟨hm, hne⟩ := key u hu
  rcases f u hm with hm | hm | ⟨d', hd', _⟩
  · cases hm
  · exact absurd hm hne
  · exact ⟨d', hd'⟩

/-- **C122 (wrong documents).** A document in the directory `D/x` that refers to `name` gets what is in the directory `D`: without it
there is no code, and if it refers to no further documents, then the code does not depend on what is at any other URL, the one that
was meant included. -/
theorem C122_wrong (hs : Site s h) {x name : Str} (hD : ∀ y ∈ D ++ [x], UrlName y) (hn : UrlName name) (hcolon : ':' ∉ name)
    (hj : ∀ b l r, urljoin ok b l = .ok r → join b l = r) (root : DFile) (hroot : root.locations = [some name]) (n : Nat) (parent : Option Str) :
    ((∃ e, read (webText s h (D ++ [name])) = .error e) → ∀ r, filesCode wd join netlocOk digest read (webText s h (D ++ [x])) n parent
      (webText s h (D ++ [x])) [] [] [] root ≠ .ok r) ∧
    ∀ d, read (webText s h (D ++ [name])) = .ok d → d.locations = [] → read' (webText s h (D ++ [name])) = .ok d →
      filesCode wd join netlocOk digest read (webText s h (D ++ [x])) n parent (webText s h (D ++ [x])) [] [] [] root =
      filesCode wd join netlocOk digest read' (webText s h (D ++ [x])) n parent (webText s h (D ++ [x])) [] [] [] root := by
  have hsplit : splitOn '/' name = [name] := splitOn_plain fun hm => (hn.2.2.2 _ hm).1 rfl
  have hrel : Relative name := by
    refine ⟨fun c hc => ⟨fun e => hcolon (e ▸ hc), (hn.2.2.2 c hc).2⟩, [name], joined_iff.2 hsplit.symm, by simp, ?_⟩
    intro y hy
    injection hy with hy
    exact hy ▸ hn
  have hhead : name.head? ≠ some '/' := fun e => (hn.2.2.2 '/' (List.mem_of_head? e)).1 rfl
  have href : ∀ u, RefersFrom s h (D ++ [x]).dropLast name u ↔ u = webText s h (D ++ [name]) := by
    have hst : StandsFor D name (D ++ [name]) := by
      rw [stands_iff, hsplit, if_neg hhead]
      show _ = goTo D name
      unfold goTo
      rw [if_neg (by simp [hn.1, hn.2.1]), if_neg hn.2.2.1]
    rw [List.dropLast_concat]
    intro u
    constructor
    · exact fun h1 => refers_unique h1 (.inr ⟨hrel, _, hst, rfl⟩)
    · rintro rfl; exact .inr ⟨hrel, _, hst, rfl⟩
  have hu : Usable root := by
    intro l hl
    rw [hroot] at hl
    obtain rfl : l = name := by simpa using hl
    exact .inr hrel
  have hfirst : ∀ rd, Asked rd s h (D ++ [x]) root (webText s h (D ++ [name])) := fun rd =>
    .first (l := name) (by rw [hroot]; simp) ((href _).2 rfl)
  constructor
  · rintro ⟨e, he⟩ r hr
    have hno : ∀ u, Asked read s h (D ++ [x]) root u → u = webText s h (D ++ [name]) := by
      intro u hu
      induction hu with
      | first hl hv =>
        rw [hroot] at hl
        obtain rfl := by simpa using hl
        exact (href _).1 hv
      | next _ hd _ _ ih => rw [ih, he] at hd; cases hd
    obtain ⟨d, hd⟩ := C122_all hs hD hj root hu (fun u d ha hd => by rw [hno u ha, he] at hd; cases hd) n parent hr _ (hfirst read)
    rw [he] at hd; cases hd
  · intro d hd hdl hd'
    have hno : ∀ u, Asked read s h (D ++ [x]) root u → u = webText s h (D ++ [name]) := by
      intro u hu
      induction hu with
      | first hl hv =>
        rw [hroot] at hl
        obtain rfl := by simpa using hl
        exact (href _).1 hv
      | next _ hd2 hl _ ih => rw [ih, hd] at hd2; cases hd2; rw [hdl] at hl; cases hl
    refine C122_only hs hD hj root hu ?_ ?_ n parent
    · intro u d' ha hd2
      rw [hno u ha, hd] at hd2
      cases hd2
      intro l hl
      rw [hdl] at hl; cases hl
    · intro u ha
      rw [hno u ha, hd, hd']

end

/-! ### When the right documents are asked for -/

theorem slashed_inj {a b : List Str} (ha : ∀ x ∈ a, '/' ∉ x) (hb : ∀ x ∈ b, '/' ∉ x) (h : slashed a = slashed b) : a = b := by
  have := congrArg (splitOn '/') h
  rw [split_slashed ha, split_slashed hb] at this
  injection this

theorem webText_inj {s h s' h' : Str} {f f' : List Str} (hs : Site s h) (hs' : Site s' h') (hf : ∀ x ∈ f, UrlName x) (hf' : ∀ x ∈ f', UrlName x)
    (e : webText s h f = webText s' h' f') : s = s' ∧ h = h' ∧ f = f' := by
  have p1 := parse_site hs hf (fun _ => true)
  have p2 := parse_site hs' hf' (fun _ => true)
  rw [e, p2] at p1
  injection p1 with p1
  have e1 : s' = s := congrArg Url.scheme p1
  have e2 : h' = h := congrArg Url.netloc p1
  have e3 : slashed f' = slashed f := congrArg Url.path p1
  exact ⟨e1.symm, e2.symm, slashed_inj (fun x hx hm => ((hf x hx).2.2.2 _ hm).1 rfl) (fun x hx hm => ((hf' x hx).2.2.2 _ hm).1 rfl) e3.symm⟩

/-- **C122 (right documents).** For a document at the root of a host, if all documents that refer to others by relative references are
at the root of this host, too, the documents that are asked for are those that are meant. -/
theorem C122_right {read : Str → Except Exn DFile} {s h name : Str} (hs : Site s h) (hn : UrlName name) (root : DFile)
    (hU : ∀ u d l, WebLeads read (Rightly (webText s h [name])) Rightly root u → read u = .ok d → some l ∈ d.locations →
      IsUrl l ∨ ∃ x, UrlName x ∧ u = webText s h [x]) (u : Str) :
    Asked read s h [] root u ↔ WebLeads read (Rightly (webText s h [name])) Rightly root u := by
  have same : ∀ {x l u}, UrlName x → (Rightly (webText s h [x]) l u ↔ RefersFrom s h [] l u) := by
    intro x l u hx
    constructor
    · rintro (h1 | ⟨s', h', dir, y, hs', hd, e, hr⟩)
      · exact .inl h1
      · obtain ⟨rfl, rfl, ef⟩ := webText_inj hs hs' (by simpa using hx) hd e
        cases dir with
        | nil => exact hr
        | cons a dir =>
          have := congrArg List.length ef
          simp at this
    · intro hr
      exact .inr ⟨s, h, [], x, hs, by simpa using hx, rfl, hr⟩
  have hkept : ∀ {doc l u}, IsUrl l → (Rightly doc l u ↔ u = l) := by
    intro doc l u hl
    constructor
    · rintro (h1 | ⟨_, _, _, _, _, _, _, h1 | h1⟩)
      · exact h1.2
      · exact h1.2
      · exact absurd hl (relative_not_url h1.1)
    · exact fun e => .inl ⟨hl, e⟩
  have hkept' : ∀ {l u}, IsUrl l → (RefersFrom s h [] l u ↔ u = l) := by
    intro l u hl
    constructor
    · rintro (h1 | h1)
      · exact h1.2
      · exact absurd hl (relative_not_url h1.1)
    · exact fun e => .inl ⟨hl, e⟩
  constructor
  · intro ha
    induction ha with
    | first hl hu => exact .first hl ((same hn).2 hu)
    | next _ hd hl hu ih =>
      refine .next ih hd hl ?_
      rcases hU _ _ _ ih hd hl with hx | ⟨x, hx, rfl⟩
      · exact (hkept hx).2 ((hkept' hx).1 hu)
      · exact (same hx).2 hu
  · intro ha
    induction ha with
    | first hl hu => exact .first hl ((same hn).1 hu)
    | next hb hd hl hu ih =>
      refine .next ih hd hl ?_
      rcases hU _ _ _ hb hd hl with hx | ⟨x, hx, rfl⟩
      · exact (hkept' hx).2 ((hkept hx).1 hu)
      · exact (same hx).1 hu

/-- **C122 (the program).** `main` takes the URL of a document without its last name for the directory. -/
theorem C122_directory {s h : Str} (hs : Site s h) {D : List Str} (hD : ∀ x ∈ D, UrlName x) {name : Str} (hn : UrlName name) (wd : Str) :
    dirName (if hasSub py"://" (webText s h (D ++ [name])) then webText s h (D ++ [name]) else absPath wd (webText s h (D ++ [name]))) =
      webText s h D := by
  rw [if_pos (isUrl_iff.1 (webText_url ..))]
  have e : webText s h (D ++ [name]) = webText s h D ++ '/' :: name := by
    simp [webText, slashed_append, slashed]
  rw [e]
  refine directory_url (fun hm => (hn.2.2.2 _ hm).1 rfl) ?_ (url_ne (webText_url ..))
  have hlast : ∀ (a b : Str), b ≠ [] → '/' ∉ b → (a ++ b).getLast? ≠ some '/' := by
    intro a b hb hm e
    rw [List.getLast?_append_of_ne_nil _ hb] at e
    exact hm (List.mem_of_getLast? e)
  cases D using List.reverseRecOn with
  | nil =>
    rw [webText, show slashed [] = [] from rfl, List.append_nil]
    exact hlast _ _ hs.named fun hm => (hs.chars _ hm).1 rfl
  | append_singleton D0 y _ =>
    have hy := hD y (by simp)
    rw [webText, slashed_append, ← List.append_assoc, show slashed [y] = ['/'] ++ y by simp [slashed], ← List.append_assoc]
    exact hlast _ _ hy.1 fun hm => (hy.2.2.2 _ hm).1 rfl

/-- **C122 (remote documents in local ones).** A relative reference in a document that a local document includes or imports by its URL
is taken for a local file, seen from the directory of the first document: if that cannot be opened, there is no code. -/
theorem C122_local {wd base : Str} {join : Str → Str → Str} {netlocOk : Str → Bool} {digest : Str → Str} {read : Str → Except Exn DFile}
    (hb : Absolute base) (hbu : ¬ IsUrl base) {b : List Str} (hb' : StandsFor [] base b) {root d : DFile} {u l : Str} (hu : IsUrl u)
    (hroot : root.locations = [some u]) (hd : read u = .ok d) (hl : d.locations = [some l]) (hlu : ¬ IsUrl l) {g : List Str}
    (hg : StandsFor b l g) (hmiss : ∀ p, Absolute p → StandsFor [] p g → ∃ e, read p = .error e) (n : Nat) (parent : Option Str) :
    ∀ r, filesCode wd join netlocOk digest read base n parent base [] [] [] root ≠ .ok r := by
  obtain rfl : b = rooted base := rooted_of_stands hb hb'
  obtain rfl : g = rooted (pathJoin base l) := stands_unique hg (rooted_join (path := l) hb).2
  have hpr := rooted_proper (pathJoin base l)
  have inner : ∀ n known types location r, filesCode wd join netlocOk digest read base n none base known types location d ≠ .ok r := by
    intro n known types location r h
    cases n with
    | zero => cases h
    | succ n =>
      obtain ⟨ls, cts, m, c, h1, h2, _⟩ := filesCode_ok h
      rw [hl, rewritePaths, rewrite_local join hb hb hbu hlu] at h1
      cases h1
      unfold filesLoop at h2
      obtain ⟨p, hp, hr⟩ := resolve_local (wd := wd) hb (relText_not_url (d := rooted base) hpr)
      rw [if_neg (relText_ne hpr), hr] at h2
      have hj := rooted_join (path := relText (rooted base) (rooted (pathJoin base l))) hb
      have hpg : rooted p = rooted (pathJoin base l) := by
        rw [hp]
        exact stands_unique hj.2 (relText_stands hpr)
      obtain ⟨e, he⟩ := hmiss p (hp ▸ hj.1) (hpg ▸ stands_abs (hp ▸ hj.1) [])
      rw [show ∀ k : Str × Str × Str → _, (Except.ok (p, dirName p, relText (rooted base) (rooted p)) : Except Exn _).bind k = k _ from fun _ => rfl] at h2
      rw [he] at h2
      cases h2
  intro r h
  cases n with
  | zero => cases h
  | succ n =>
    obtain ⟨ls, cts, m, c, h1, h2, _⟩ := filesCode_ok h
    rw [hroot, rewritePaths, (C74_kept wd join base base).2.1 u hu] at h1
    cases h1
    unfold filesLoop at h2
    rw [if_neg (url_ne hu), resolve_url wd base hu] at h2
    have h2 : (read u).bind _ = Except.ok m := h2
    rw [hd] at h2
    have h2 : (if u ≠ [] ∧ u ∈ [] then _ else _) = Except.ok m := h2
    rw [if_neg (by simp)] at h2
    cases hne : filesCode wd join netlocOk digest read base n none base [] [] u d with
    | ok x => exact inner n [] [] u x hne
    | error e =>
      have h2 : (filesCode wd join netlocOk digest read base n none base [] [] u d).bind _ = Except.ok m := h2
      rw [hne] at h2
      cases h2

/-! ### Examples -/

example : urljoin (fun _ => true) py"http://example.com/schemas/v1" py"types.xsd" = .ok py"http://example.com/schemas/types.xsd" := by
  decide +kernel

example : Site py"http" py"example.com" := ⟨.inl rfl, by decide, by decide⟩

example : ∀ x ∈ [py"schemas", py"v1"], UrlName x := by unfold UrlName; decide

example : Relative py"../common/./types.xsd" :=
  ⟨by decide, [py"..", py"common", py".", py"types.xsd"], ⟨by decide, by decide, rfl⟩, by decide, by
    intro x hx; injection hx with hx; subst hx; unfold UrlName; decide⟩

example : StandsFor [py"schemas"] py"../common/./types.xsd" [py"common", py"types.xsd"] :=
  ⟨[py"..", py"common", py".", py"types.xsd"], ⟨by decide, by decide, rfl⟩, by decide⟩

theorem slashed_chars {D : List Str} (hD : ∀ x ∈ D, UrlName x) : ∀ c ∈ slashed D, 0x20 < c.toNat := by
  induction D with
  | nil => intro c hc; cases hc
  | cons x D ih =>
    intro c hc
    unfold slashed at hc
    rcases List.mem_cons.1 hc with rfl | hc
    · decide
    rcases List.mem_append.1 hc with hc | hc
    · exact ((hD x (by simp)).2.2.2 c hc).2.2.2.2
    · exact ih (fun y hy => hD y (by simp [hy])) c hc

theorem parse_server {s h : Str} (hs : Site s h) {D : List Str} (hD : ∀ x ∈ D, UrlName x) (ok : Str → Bool) :
    urlparseFrom ok s (py"//" ++ h ++ slashed D) = .ok { scheme := s, netloc := h, path := slashed D } := by
  have hgt : ∀ c ∈ py"//" ++ h ++ slashed D, 0x20 < c.toNat := by
    intro c hc
    simp only [List.mem_append] at hc
    rcases hc with (hc | hc) | hc
    · exact (by decide : ∀ c ∈ py"//", 0x20 < c.toNat) c hc
    · exact (hs.chars c hc).2.2.2.2.2.1
    · exact slashed_chars hD c hc
  have ctl : ∀ (u : Str), (∀ c ∈ u, 0x20 < c.toNat) → cleanUrl u = u := by
    intro u hu
    refine cleanUrl_eq (fun c r e => hu c (by rw [e]; simp)) fun c hc => ?_
    have := hu c hc
    refine ⟨?_, ?_, ?_⟩ <;> rintro rfl <;> simp at this
  have e : webText s h D = s ++ ':' :: (py"//" ++ h ++ slashed D) := by simp [webText]
  have hw : ∀ c ∈ webText s h D, 0x20 < c.toNat := by
    intro c hc
    rw [e] at hc
    rcases List.mem_append.1 hc with hc | hc
    · rcases hs.isWeb with e | e <;> rw [e] at hc
      · exact (by decide : ∀ c ∈ py"http", 0x20 < c.toNat) c hc
      · exact (by decide : ∀ c ∈ py"https", 0x20 < c.toNat) c hc
    · rcases List.mem_cons.1 hc with rfl | hc
      · decide
      · exact hgt c hc
  have hsch : splitScheme (py"//" ++ h ++ slashed D) = ([], py"//" ++ h ++ slashed D) := by
    unfold splitScheme
    have : ∀ r : Str, ∃ cs, (upTo (· = ':') ('/' :: r)).1 = '/' :: cs := fun r => by simp [upTo]
    obtain ⟨cs, h1⟩ := this ('/' :: (h ++ slashed D))
    show (match upTo (· = ':') ('/' :: '/' :: (h ++ slashed D)) with
      | (c :: cs, _ :: rest) => if isAlphaC c && cs.all isSchemeChar then (lower (c :: cs), rest) else ([], _)
      | _ => ([], _)) = _
    cases hu : upTo (· = ':') ('/' :: '/' :: (h ++ slashed D)) with
    | mk a b =>
      rw [hu] at h1
      simp only at h1
      subst h1
      cases b with
      | nil => rfl
      | cons x b => rfl
  have := parse_site hs hD ok
  have hne : s ≠ [] := by rcases hs.isWeb with e | e <;> rw [e] <;> decide
  unfold urlparseFrom at this ⊢
  simp only [ctl _ hw, ctl _ hgt, hsch] at this ⊢
  rw [e, splitScheme_eq hs.isWeb] at this
  simp only [if_neg hne] at this
  exact this

/-- **C122 (references).** A reference that names a server is a URL of this server, with the scheme of the referring document. -/
theorem C122_server {s h h' : Str} (hs : Site s h) (hs' : Site s h') {D f : List Str} (hD : ∀ x ∈ D, UrlName x)
    (hf : ∀ x ∈ f, UrlName x) (ok : Str → Bool) :
    urljoin ok (webText s h D) (py"//" ++ h' ++ slashed f) = .ok (webText s h' f) := by
  have hbne : webText s h D ≠ [] := url_ne (webText_url ..)
  have hrel : s ∈ usesRelative := by rcases hs.isWeb with e | e <;> rw [e] <;> decide
  have hnet : s ∈ usesNetloc := by rcases hs.isWeb with e | e <;> rw [e] <;> decide
  have hne : s ≠ [] := by rcases hs.isWeb with e | e <;> rw [e] <;> decide
  unfold urljoin
  rw [if_neg hbne, if_neg (by simp), parse_site hs hD ok]
  show (urlparseFrom ok s (py"//" ++ h' ++ slashed f)).bind _ = _
  rw [parse_server hs' hf ok]
  show (if _ then _ else _) = _
  rw [if_neg (by simp [hrel]), if_pos ⟨hnet, hs'.named⟩]
  congr 1
  have hsl : ¬ (slashed f ≠ [] ∧ (slashed f).head? ≠ some '/') := by
    cases f with
    | nil => simp [slashed]
    | cons x D => simp [slashed]
  unfold urlJoinParts
  simp only [if_neg hne]
  rw [if_pos (.inl hs'.named)]
  have hd : ∀ c, delimited c [] = [] := fun c => by unfold delimited; simp
  rw [hd, hd, hd, List.append_nil (slashed f), List.append_nil, if_neg hsl]
  simp [webText]

/-- A schema on another server -/
example (ok : Str → Bool) : urljoin ok py"https://a/x/y" py"//b:8080/z.xsd" = .ok py"https://b:8080/z.xsd" :=
  C122_server (s := py"https") (h := py"a") (h' := py"b:8080") (D := [py"x", py"y"]) (f := [py"z.xsd"])
    ⟨.inr rfl, by decide, by decide⟩ ⟨.inr rfl, by decide, by decide⟩ (by unfold UrlName; decide +kernel)
    (by unfold UrlName; decide +kernel) ok

end Soapfish
