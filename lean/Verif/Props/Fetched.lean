import Verif.Spec.Fetched
import Verif.Props.Remote
/-
Fetching documents whose locations are queries, as those of a dispatcher are (soapfish/soap_dispatch.py:235-237): C132.
-/
set_option maxRecDepth 8000
namespace Soapfish

theorem parse_query {w : Str} (hw : QueryText w) {s : Str} (hs : s = py"http" ∨ s = py"https") (ok : Str → Bool) :
    urlparseFrom ok s ('?' :: w) = .ok { scheme := s, query := w } := by
  have hc : ∀ c ∈ '?' :: w, c ≠ ':' ∧ c ≠ '#' ∧ 0x20 < c.toNat := by
    intro c hc
    rcases List.mem_cons.1 hc with rfl | hc
    · decide
    · exact hw.2 c hc
  have hclean : cleanUrl ('?' :: w) = '?' :: w := by
    refine cleanUrl_eq ?_ ?_
    · intro c r e
      injection e with e _
      rw [← e]; decide
    · intro c hm
      have := (hc c hm).2.2
      refine ⟨?_, ?_, ?_⟩ <;> rintro rfl <;> simp at this
  have hsch : splitScheme ('?' :: w) = ([], '?' :: w) := by
    unfold splitScheme
    have : upTo (· = ':') ('?' :: w) = ('?' :: w, []) := by
      have := upTo_append (stop := (· = ':')) (s := '?' :: w) (t := []) (fun c hm => by simp [(hc c hm).1]) (.inl rfl)
      simpa using this
    rw [this]
  have hnet : splitNetloc ('?' :: w) = ([], '?' :: w) := by
    unfold splitNetloc
    split
    · rename_i e; cases e
    · rfl
  have hq : cutAt '?' ('?' :: w) = ([], w) := by simp [cutAt, upTo]
  have hu : s ∈ usesParams := by rcases hs with e | e <;> rw [e] <;> decide
  unfold urlparseFrom
  simp only [hclean, hsch, hnet, if_true, cut_none (c := '#') (s := '?' :: w) fun hm => (hc _ hm).2.1 rfl, hq, if_pos hu,
    splitParams_none (p := []) (by simp)]
  have : checkNetloc ok [] = .ok () := by unfold checkNetloc; simp
  rw [this]
  rfl

/-- **C132 (references).** `urljoin` of the URL of a directory, written without a slash at the end, and a query asks the directory. -/
theorem C132_join {s h : Str} (hs : Site s h) {D : List Str} (hD : ∀ x ∈ D, UrlName x) {w : Str} (hw : QueryText w) (ok : Str → Bool) :
    urljoin ok (webText s h D) ('?' :: w) = .ok (webText s h D ++ '?' :: w) := by
  have hbne : webText s h D ≠ [] := url_ne (webText_url ..)
  have hrel : s ∈ usesRelative := by rcases hs.isWeb with e | e <;> rw [e] <;> decide
  have hnet : s ∈ usesNetloc := by rcases hs.isWeb with e | e <;> rw [e] <;> decide
  have hne : s ≠ [] := by rcases hs.isWeb with e | e <;> rw [e] <;> decide
  unfold urljoin
  rw [if_neg hbne, if_neg (by simp), parse_site hs hD ok]
  show (urlparseFrom ok s ('?' :: w)).bind _ = _
  rw [parse_query hw hs.isWeb ok]
  show (if _ then _ else _) = _
  rw [if_neg (by simp [hrel]), if_neg (by simp), if_pos hnet, if_pos (by simp)]
  congr 1
  have hsl : ¬ (slashed D ≠ [] ∧ (slashed D).head? ≠ some '/') := by
    cases D with
    | nil => simp [slashed]
    | cons x D => simp [slashed]
  unfold urlJoinParts
  simp only [if_neg hw.1, if_neg hne]
  rw [if_pos (.inl hs.named)]
  have hd : ∀ c, delimited c [] = [] := fun c => by unfold delimited; simp
  have hd' : delimited '?' w = '?' :: w := by unfold delimited; simp [hw.1]
  rw [hd, hd, hd', List.append_nil (slashed D), List.append_nil, if_neg hsl]
  simp [webText]

/-- **C132 (the directory).** From the URL of a service and a query without slashes, `main` makes the URL of the directory the service is in. -/
theorem C132_directory {s h : Str} (hs : Site s h) {D : List Str} (hD : ∀ x ∈ D, UrlName x) {name : Str} (hn : '/' ∉ name) {w : Str}
    (hw : '/' ∉ w) (wd : Str) (u : Str) (hu : u = webText s h D ++ '/' :: (name ++ '?' :: w)) :
    dirName (if hasSub py"://" u then u else absPath wd u) = webText s h D := by
  have hurl : IsUrl u := ⟨s, h ++ slashed D ++ '/' :: (name ++ '?' :: w), by rw [hu]; simp [webText]⟩
  rw [if_pos (isUrl_iff.1 hurl), hu]
  refine directory_url (by simp [hn, hw]) ?_ (url_ne (webText_url ..))
  have hlast : ∀ (a b : Str), b ≠ [] → '/' ∉ b → (a ++ b).getLast? ≠ some '/' := by
    intro a b hb hm e
    rw [List.getLast?_append_of_ne_nil _ hb] at e
    exact hm (List.mem_of_getLast? e)
  cases D using List.reverseRecOn with
  | nil =>
    rw [webText, show slashed [] = [] from rfl, List.append_nil]
    exact hlast _ _ hs.named fun hm => (hs.chars _ hm).1 rfl
  | append_singleton D0 y _ =>
    have hy := hD y (by simp)
    rw [webText, slashed_append, ← List.append_assoc, show slashed [y] = ['/'] ++ y by simp [slashed], ← List.append_assoc]
    exact hlast _ _ hy.1 fun hm => (hy.2.2.2 _ hm).1 rfl

section
variable {wd s h : Str} {D : List Str} {join : Str → Str → Str} {ok netlocOk : Str → Bool} {digest : Str → Str}
  {read : Str → Except Exn DFile}

theorem rewrite_each {cwd base : Str} {ls ls' : List (Option Str)} (hr : rewritePaths wd join cwd base ls = .ok ls') {o : Option Str}
    (ho : o ∈ ls) : ∃ o' ∈ ls', rewriteLocation wd join cwd base o = .ok o' := by
  induction ls generalizing ls' with
  | nil => cases ho
  | cons a ls ih =>
    unfold rewritePaths at hr
    cases h1 : rewriteLocation wd join cwd base a with
    | error e => rw [h1] at hr; cases hr
    | ok a' =>
      rw [h1] at hr
      have hr : Except.map _ (rewritePaths wd join cwd base ls) = Except.ok ls' := hr
      cases h2 : rewritePaths wd join cwd base ls with
      | error e => rw [h2] at hr; cases hr
      | ok r =>
        rw [h2] at hr
        cases hr
        rcases List.mem_cons.1 ho with rfl | ho
        · exact ⟨a', by simp, h1⟩
        · obtain ⟨o', h3, h4⟩ := ih h2 ho
          exact ⟨o', by simp [h3], h4⟩

theorem loop_reads {base : Str}
    {nested : Str → List Str → List Str → Str → DFile → Except Exn (List FileCode × List Str × List Str)}
    {ls : List (Option Str)} {out : List FileCode} {known types : List Str}
    {r : List FileCode × List Str × List Str} (hl : filesLoop wd read base nested ls out known types = .ok r) {u : Str} (hu : IsUrl u)
    (hm : some u ∈ ls) : ∃ d, read u = .ok d := by
  induction ls generalizing out known types with
  | nil => cases hm
  | cons o ls ih =>
    cases o with
    | none => exact ih hl (by simpa using hm)
    | some l =>
      unfold filesLoop at hl
      split at hl
      · rename_i hne
        rcases List.mem_cons.1 hm with hm | hm
        · injection hm with hm
          exact absurd (hm.trans hne) (url_ne hu)
        · exact ih hl hm
      · cases h1 : resolveLocation wd l base with
        | error e => rw [h1] at hl; cases hl
        | ok x =>
          rw [h1] at hl
          have hl : (read x.1).bind _ = Except.ok r := hl
          cases h2 : read x.1 with
          | error e => rw [h2] at hl; cases hl
          | ok f =>
            rcases List.mem_cons.1 hm with hm | hm
            · injection hm with hm
              subst hm
              rw [resolve_url wd base hu] at h1
              have := Except.ok.inj h1
              rw [← this] at h2
              exact ⟨f, h2⟩
            · rw [h2] at hl
              have hl : (if x.2.2 ≠ [] ∧ x.2.2 ∈ known then _ else _) = Except.ok r := hl
              split at hl
              · exact ih hl hm
              · cases h3 : nested x.2.1 known types x.2.2 f with
                | error e => rw [h3] at hl; cases hl
                | ok m => rw [h3] at hl; exact ih hl hm

/-- **C132 (asked).** There is code for a document in the directory `D` of a host that refers to another one by a query only if the
directory itself answers the query with a document. -/
theorem C132_asked (hs : Site s h) (hD : ∀ x ∈ D, UrlName x) (hj : ∀ b l r, urljoin ok b l = .ok r → join b l = r)
    {root : DFile} {w : Str} (hw : QueryText w) (hroot : some ('?' :: w) ∈ root.locations) {n : Nat} {parent : Option Str} {base : Str}
    {known types : List Str} {location : Str} {r : List FileCode × List Str × List Str}
    (hr : filesCode wd join netlocOk digest read base n parent (webText s h D) known types location root = .ok r) :
    ∃ d, read (webText s h D ++ '?' :: w) = .ok d := by
  cases n with
  | zero => cases hr
  | succ n =>
    unfold filesCode at hr
    cases h1 : rewritePaths wd join (webText s h D) base root.locations with
    | error e => rw [h1] at hr; cases hr
    | ok ls =>
      rw [h1] at hr
      have hr : (reorderComplex n root.schema.complexTypes).bind _ = Except.ok r := hr
      cases h2 : reorderComplex n root.schema.complexTypes with
      | error e => rw [h2] at hr; cases hr
      | ok cts =>
        rw [h2] at hr
        have hr : (filesLoop wd read base (filesCode wd join netlocOk digest read base n none) ls []
          (if location = [] then known else known ++ [location]) types).bind _ = Except.ok r := hr
        cases h3 : filesLoop wd read base (filesCode wd join netlocOk digest read base n none) ls []
          (if location = [] then known else known ++ [location]) types with
        | error e => rw [h3] at hr; cases hr
        | ok m =>
          obtain ⟨o', h4, h5⟩ := rewrite_each h1 hroot
          have hnu : ¬ IsUrl ('?' :: w) := no_url fun hc => by
            rcases List.mem_cons.1 hc with hc | hc
            · cases hc
            · exact (hw.2 _ hc).1 rfl
          rw [(C74_kept wd join (webText s h D) base).2.2 _ hnu (webText_url ..), hj _ _ _ (C132_join hs hD hw ok)] at h5
          have h5 := Except.ok.inj h5
          rw [← h5] at h4
          exact loop_reads h3 ⟨s, h ++ slashed D ++ '?' :: w, by simp [webText]⟩ h4

/-- **C132 (served documents).** A dispatcher's documents refer to each other by queries.  If nothing but the service itself gives
documents, there is no code for any of its documents that imports or includes another one. -/
theorem C132_none (hs : Site s h) (hD : ∀ x ∈ D, UrlName x) (hj : ∀ b l r, urljoin ok b l = .ok r → join b l = r)
    {name : Str} (hread : ∀ u d, read u = .ok d → ∃ rest, u = webText s h (D ++ [name]) ++ rest) {root : DFile} {x : Str}
    (hx : QueryText x) (hroot : some (py"?xsd=" ++ x) ∈ root.locations) (n : Nat) (parent : Option Str) (base : Str)
    (known types : List Str) (location : Str) (r : List FileCode × List Str × List Str) :
    filesCode wd join netlocOk digest read base n parent (webText s h D) known types location root ≠ .ok r := by
  intro hr
  have hw : QueryText (py"xsd=" ++ x) := by
    refine ⟨by simp, fun c hc => ?_⟩
    rcases List.mem_append.1 hc with hc | hc
    · exact (by decide : ∀ c ∈ py"xsd=", c ≠ ':' ∧ c ≠ '#' ∧ 0x20 < c.toNat) c hc
    · exact hx.2 c hc
  obtain ⟨d, hd⟩ := C132_asked hs hD hj hw hroot hr
  obtain ⟨rest, e⟩ := hread _ d hd
  have e' : webText s h (D ++ [name]) = webText s h D ++ '/' :: name := by simp [webText, slashed_append, slashed]
  rw [e', List.append_assoc] at e
  have := List.append_cancel_left e
  cases this

end

namespace ExServed

/-- The service is at http://h/a/s.  Its document http://h/a/s?xsd=x refers to ?xsd=y, for which http://h/a?xsd=y is asked. -/
example (ok : Str → Bool) : urljoin ok py"http://h/a" py"?xsd=y" = .ok py"http://h/a?xsd=y" :=
  C132_join (s := py"http") (h := py"h") (D := [py"a"]) ⟨.inl rfl, by decide, by decide⟩
    (by intro x hx; rw [List.mem_singleton.1 hx]; exact ⟨by decide, by decide, by decide, by decide⟩) (w := py"xsd=y") ⟨by decide, by decide⟩ ok

example : dirName (if hasSub py"://" py"http://h/a/s?xsd=x" then py"http://h/a/s?xsd=x" else absPath py"/" py"http://h/a/s?xsd=x") = py"http://h/a" :=
  C132_directory (s := py"http") (h := py"h") (D := [py"a"]) ⟨.inl rfl, by decide, by decide⟩
    (by intro x hx; rw [List.mem_singleton.1 hx]; exact ⟨by decide, by decide, by decide, by decide⟩) (name := py"s") (w := py"xsd=x")
    (by decide) (by decide) _ _ rfl

/-- For a service at the root of the host the same URL is asked, up to the slash after the host. -/
example : dirName (if hasSub py"://" py"http://h/?wsdl" then py"http://h/?wsdl" else absPath py"/" py"http://h/?wsdl") = py"http://h" :=
  C132_directory (s := py"http") (h := py"h") (D := []) ⟨.inl rfl, by decide, by decide⟩ (by simp) (name := []) (w := py"wsdl")
    (by decide) (by decide) _ _ rfl

def served (u : Str) : Except Exn DFile :=
  if u = py"http://h/a/s?xsd=x" then .ok { prefixes := [], schema := { targetNamespace := some py"urn:x", includes := [some py"?xsd=y"] } }
  else if u = py"http://h/a/s?xsd=y" then .ok { prefixes := [], schema := { targetNamespace := some py"urn:x" } } else .error .valueError

/-- So there is no code for the first document. -/
example (ok netlocOk : Str → Bool) (wd : Str) (join : Str → Str → Str) (hj : ∀ b l r, urljoin ok b l = .ok r → join b l = r) (digest : Str → Str)
    (root : DFile) (hroot : served py"http://h/a/s?xsd=x" = .ok root) (n : Nat) (r : List FileCode × List Str × List Str) :
    filesCode wd join netlocOk digest served py"http://h/a" n none py"http://h/a" [] [] [] root ≠ .ok r := by
  refine C132_none (s := py"http") (h := py"h") (D := [py"a"]) ⟨.inl rfl, by decide, by decide⟩
    (by intro x hx; rw [List.mem_singleton.1 hx]; exact ⟨by decide, by decide, by decide, by decide⟩) hj (name := py"s") ?_ (x := py"y")
    ⟨by decide, by decide⟩ ?_ n none _ _ _ _ r
  · intro u d hd
    unfold served at hd
    split at hd
    · rename_i e; exact ⟨py"?xsd=x", e⟩
    · split at hd
      · rename_i e; exact ⟨py"?xsd=y", e⟩
      · cases hd
  · cases hroot
    simp [DFile.locations]

end ExServed

end Soapfish
