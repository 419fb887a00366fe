import Verif.Url
import Verif.Spec.Endpoint
import Verif.Props.Action
/-
The address of the service in generated code: C90.
-/
namespace Soapfish

/-! ### Lemmas -/

theorem upTo_append {stop : Char → Bool} {s t : Str} (hs : ∀ c ∈ s, stop c = false)
    (ht : t = [] ∨ ∃ c r, t = c :: r ∧ stop c = true) : upTo stop (s ++ t) = (s, t) := by
  unfold upTo
  induction s with
  | nil =>
    rcases ht with rfl | ⟨c, r, rfl, hc⟩
    · rfl
    · simp [hc]
  | cons a s ih =>
    have ha := hs a (List.mem_cons_self ..)
    have := ih fun c hc => hs c (List.mem_cons_of_mem _ hc)
    simp only [Prod.mk.injEq] at this
    simp [ha, this.1, this.2]

theorem cutAt_none {c : Char} {s : Str} (h : c ∉ s) : cutAt c s = (s, []) := by
  have := upTo_append (stop := (· = c)) (s := s) (t := []) (fun d hd => by simp; rintro rfl; exact h hd) (.inl rfl)
  rw [List.append_nil] at this
  unfold cutAt
  rw [this]; rfl

theorem cutAt_some {c : Char} {s t : Str} (h : c ∉ s) : cutAt c (s ++ c :: t) = (s, t) := by
  have := upTo_append (stop := (· = c)) (s := s) (t := c :: t) (fun d hd => by simp; rintro rfl; exact h hd)
    (.inr ⟨c, t, rfl, by simp⟩)
  unfold cutAt
  rw [this]; rfl

theorem cutAt_written {c : Char} {s : Str} {o : Option Str} (h : c ∉ s) : cutAt c (s ++ written c o) = (s, o.getD []) := by
  cases o with
  | none => rw [show s ++ written c none = s from List.append_nil s, cutAt_none h]; rfl
  | some t => rw [show s ++ written c (some t) = s ++ c :: t from rfl, cutAt_some h]; rfl

theorem lastSlash_eq (s t : Str) (h : '/' ∉ t) : lastSlash (s ++ '/' :: t) = (s ++ ['/'], t) := by
  induction s with
  | nil =>
    show lastSlash ('/' :: t) = _
    unfold lastSlash
    rw [if_pos (List.mem_cons_self ..)]
    have : lastSlash t = ([], t) := by
      cases t with
      | nil => rfl
      | cons c t => unfold lastSlash; rw [if_neg h]
    rw [this]; rfl
  | cons c s ih =>
    show lastSlash (c :: (s ++ '/' :: t)) = _
    unfold lastSlash
    rw [if_pos (by simp), ih]; rfl

/-- The last slash of a path. -/
theorem exists_last_slash (s : Str) (h : '/' ∈ s) : ∃ a b, s = a ++ '/' :: b ∧ '/' ∉ b := by
  induction s with
  | nil => cases h
  | cons c s ih =>
    by_cases hs : '/' ∈ s
    · obtain ⟨a, b, rfl, hb⟩ := ih hs
      exact ⟨c :: a, b, rfl, hb⟩
    · rcases List.mem_cons.1 h with rfl | h
      · exact ⟨[], s, rfl, hs⟩
      · exact absurd h hs

theorem splitParams_eq {path : Str} {params : Option Str} (hp : path = [] ∨ '/' ∈ path)
    (hl : ∀ s t, path = s ++ ';' :: t → '/' ∈ t)
    (hs : ∀ s, params = some s → path ≠ [] ∧ ∀ c ∈ s, c ≠ '/' ∧ c ≠ '?' ∧ c ≠ '#') :
    splitParams (path ++ written ';' params) = (path, params.getD []) := by
  rcases hp with rfl | hr
  · cases params with
    | none => rfl
    | some s => exact absurd rfl (hs s rfl).1
  · obtain ⟨a, b, hab, hb⟩ := exists_last_slash path hr
    have hw : '/' ∉ b ++ written ';' params := by
      intro h
      rcases List.mem_append.1 h with h | h
      · exact hb h
      · cases params with
        | none => cases h
        | some s =>
          rcases List.mem_cons.1 h with h | h
          · exact absurd h (by decide)
          · exact ((hs s rfl).2 _ h).1 rfl
    have hsemi : ';' ∉ b := by
      intro h
      obtain ⟨x, y, rfl⟩ := List.append_of_mem h
      have := hl (a ++ '/' :: x) y (by rw [hab]; simp)
      exact hb (by simp [this])
    have e : path ++ written ';' params = a ++ '/' :: (b ++ written ';' params) := by rw [hab]; simp
    unfold splitParams
    rw [e, lastSlash_eq a _ hw]
    dsimp only
    rw [cutAt_written hsemi, hab]
    simp

theorem delimited_written (c : Char) (o : Option Str) :
    delimited c (o.getD []) = written c (dropEmpty o) := by
  cases o with
  | none => rfl
  | some s => cases s <;> rfl

theorem splitScheme_eq {scheme rest : Str} (h : scheme = py"http" ∨ scheme = py"https") :
    splitScheme (scheme ++ ':' :: rest) = (scheme, rest) := by
  unfold splitScheme
  have : upTo (· = ':') (scheme ++ ':' :: rest) = (scheme, ':' :: rest) := by
    refine upTo_append ?_ (.inr ⟨_, _, rfl, by simp⟩)
    rcases h with rfl | rfl <;> decide
  rw [this]
  rcases h with rfl | rfl <;> rfl

theorem cleanUrl_eq {u : Str} (h1 : ∀ c r, u = c :: r → 0x20 < c.toNat) (h2 : ∀ c ∈ u, c ≠ '\t' ∧ c ≠ '\r' ∧ c ≠ '\n') :
    cleanUrl u = u := by
  unfold cleanUrl
  have : u.dropWhile (fun c => decide (c.toNat ≤ 0x20)) = u := by
    cases u with
    | nil => rfl
    | cons c r =>
      have := h1 c r rfl
      rw [List.dropWhile_cons_of_neg]
      simp; omega
  rw [this, List.filter_eq_self]
  intro c hc
  obtain ⟨a, b, d⟩ := h2 c hc
  simp [a, b, d]

theorem rest_stops (a : WebAddress) (h : a.Ok) :
    a.rest = [] ∨ ∃ c r, a.rest = c :: r ∧ (c = '/' || c = '?' || c = '#') = true := by
  unfold WebAddress.rest
  rcases h.path with hp | ⟨s, hp⟩
  · rw [hp]
    have : a.params = none := by
      cases hpa : a.params with
      | none => rfl
      | some s => exact absurd hp (h.params s hpa).1
    rw [this]
    cases a.query with
    | some q => exact .inr ⟨'?', _, rfl, rfl⟩
    | none => cases a.fragment with
      | some f => exact .inr ⟨'#', _, rfl, rfl⟩
      | none => exact .inl rfl
  · rw [hp]
    exact .inr ⟨'/', _, rfl, rfl⟩

/-- Cutting off the fragment, with some text in front. -/
theorem cut_fragment (p : Str) (a : WebAddress) (h : a.Ok) (hp : '#' ∉ p) :
    cutAt '#' (p ++ a.rest) = (p ++ (a.path ++ written ';' a.params ++ written '?' a.query), a.fragment.getD []) := by
  have e : p ++ a.rest = p ++ (a.path ++ written ';' a.params ++ written '?' a.query) ++ written '#' a.fragment := by
    unfold WebAddress.rest; simp
  rw [e]
  refine cutAt_written ?_
  intro hc
  rcases List.mem_append.1 hc with hc | hc
  · exact hp hc
  rcases List.mem_append.1 hc with hc | hc
  · rcases List.mem_append.1 hc with hc | hc
    · exact (h.pathChars _ hc).2 rfl
    · cases hp : a.params with
      | none => rw [hp] at hc; cases hc
      | some s =>
        rw [hp] at hc
        rcases List.mem_cons.1 hc with hc | hc
        · exact absurd hc (by decide)
        · exact ((h.params s hp).2 _ hc).2.2 rfl
  · cases hq : a.query with
    | none => rw [hq] at hc; cases hc
    | some s =>
      rw [hq] at hc
      rcases List.mem_cons.1 hc with hc | hc
      · exact absurd hc (by decide)
      · exact h.query s hq hc

/-- Cutting off the query. -/
theorem cut_query (p : Str) (a : WebAddress) (h : a.Ok) (hp : '?' ∉ p) :
    cutAt '?' (p ++ (a.path ++ written ';' a.params ++ written '?' a.query)) =
      (p ++ (a.path ++ written ';' a.params), a.query.getD []) := by
  rw [show p ++ (a.path ++ written ';' a.params ++ written '?' a.query) =
    p ++ (a.path ++ written ';' a.params) ++ written '?' a.query by simp]
  refine cutAt_written ?_
  intro hc
  rcases List.mem_append.1 hc with hc | hc
  · exact hp hc
  rcases List.mem_append.1 hc with hc | hc
  · exact (h.pathChars _ hc).1 rfl
  · cases hp : a.params with
    | none => rw [hp] at hc; cases hc
    | some s =>
      rw [hp] at hc
      rcases List.mem_cons.1 hc with hc | hc
      · exact absurd hc (by decide)
      · exact ((h.params s hp).2 _ hc).2.1 rfl

theorem urlparse_eq (ok : Str → Bool) (a : WebAddress) (h : a.Ok) :
    urlparse ok a.text = .ok { scheme := a.scheme, netloc := a.host, path := a.path, params := a.params.getD [],
                               query := a.query.getD [], fragment := a.fragment.getD [] } := by
  have hclean : cleanUrl a.text = a.text := by
    refine cleanUrl_eq ?_ h.spaces
    intro c r hc
    unfold WebAddress.text at hc
    rcases h.scheme with hs | hs
    all_goals
      rw [hs] at hc
      injection hc with hc _
      subst hc
      decide
  have hs : splitScheme a.text = (a.scheme, '/' :: '/' :: (a.host ++ a.rest)) := by
    have : a.text = a.scheme ++ ':' :: '/' :: '/' :: (a.host ++ a.rest) := by
      unfold WebAddress.text; simp
    rw [this]
    exact splitScheme_eq h.scheme
  have hn : splitNetloc ('/' :: '/' :: (a.host ++ a.rest)) = (a.host, a.rest) := by
    unfold splitNetloc
    refine upTo_append ?_ (rest_stops a h)
    intro c hc
    obtain ⟨h1, h2, h3, _⟩ := h.host c hc
    simp [h1, h2, h3]
  have hcheck : checkNetloc ok a.host = .ok () := by
    unfold checkNetloc
    have h1 : '[' ∉ a.host := fun hc => (h.host _ hc).2.2.2.1 rfl
    have h2 : ']' ∉ a.host := fun hc => (h.host _ hc).2.2.2.2.1 rfl
    have h3 : a.host.any (fun c => 0x80 ≤ c.toNat) = false := by
      rw [List.any_eq_false]
      intro c hc
      have := (h.host c hc).2.2.2.2.2
      simp; omega
    simp [h1, h2, h3]
  have hf : cutAt '#' a.rest = (a.path ++ written ';' a.params ++ written '?' a.query, a.fragment.getD []) :=
    cut_fragment [] a h (by simp)
  have hq : cutAt '?' (a.path ++ written ';' a.params ++ written '?' a.query) =
      (a.path ++ written ';' a.params, a.query.getD []) := cut_query [] a h (by simp)
  have hu : a.scheme ∈ usesParams := by rcases h.scheme with hs | hs <;> rw [hs] <;> decide
  unfold urlparse
  simp only [hclean, hs, hn, hcheck, hf, hq, if_pos hu, splitParams_eq (h.path.imp id fun ⟨s, hs⟩ => by rw [hs]; exact List.mem_cons_self ..) h.lastSegment
    h.params]
  rfl

theorem urlunparse_eq (a : WebAddress) (h : a.Ok) (scheme host : Str) :
    urlunparse { scheme := scheme, netloc := host, path := a.path, params := a.params.getD [],
                 query := a.query.getD [], fragment := a.fragment.getD [] } = scheme ++ py"://" ++ host ++ a.tidied.rest := by
  unfold urlunparse
  simp only [delimited_written]
  rw [if_pos]
  · simp [WebAddress.tidied, WebAddress.rest]
  · rcases h.path with hp | ⟨s, hp⟩
    · have : a.params = none := by
        cases hpa : a.params with
        | none => rfl
        | some s => exact absurd hp (h.params s hpa).1
      rw [hp, this]; exact .inl rfl
    · rw [hp]; exact .inr rfl

theorem subst_prefix {scheme host rest r : Str} (h : Subst (schemeAndHost scheme host) rest r) :
    Subst (schemeAndHost scheme host) (py"${scheme}" ++ py"://" ++ py"${host}" ++ rest) (scheme ++ py"://" ++ host ++ r) := by
  have i1 : Ident py"scheme" := ⟨'s', py"cheme", rfl, by unfold IdStart; decide, by unfold IdChar IdStart; decide⟩
  have i2 : Ident py"host" := ⟨'h', py"ost", rfl, by unfold IdStart; decide, by unfold IdChar IdStart; decide⟩
  have h1 := Subst.braced (val := schemeAndHost scheme host) i2 h
  have h2 := Subst.char (c := ':') (by decide) (Subst.char (c := '/') (by decide) (Subst.char (c := '/') (by decide) h1))
  have h3 := Subst.braced i1 h2
  have e : ((schemeAndHost scheme host py"scheme").getD ('$' :: '{' :: (py"scheme" ++ ['}'])) ++ ':' :: '/' :: '/' ::
      ((schemeAndHost scheme host py"host").getD ('$' :: '{' :: (py"host" ++ ['}'])) ++ r)) =
      scheme ++ py"://" ++ host ++ r := by
    show scheme ++ ':' :: '/' :: '/' :: (host ++ r) = _
    simp
  rw [e] at h3
  exact h3

theorem subst_plain {val : Str → Option Str} {s : Str} (h : '$' ∉ s) : Subst val s s := by
  induction s with
  | nil => exact .nil
  | cons c s ih =>
    rw [List.mem_cons, not_or] at h
    exact .char (fun he => h.1 he.symm) (ih h.2)

/-! ### C90 -/

/-- **C90 (parts).** From the address of a port the templates make a location with placeholders, a scheme and a host.  A stub
with another scheme and host goes to the address with these in place of its own; parts of the address that are only a
delimiter are gone, and what follows the host is subject to the substitution, too. -/
theorem C90_location (ok : Str → Bool) (a : WebAddress) (h : a.Ok) :
    urlScheme ok a.text = .ok a.scheme ∧ urlNetloc ok a.text = .ok a.host ∧
    ∃ t, urlTemplate ok a.text = .ok t ∧ ∀ scheme host rest, Subst (schemeAndHost scheme host) a.tidied.rest rest →
      stubLocation t scheme host .none = .ok (scheme ++ py"://" ++ host ++ rest) := by
  unfold urlScheme urlNetloc urlTemplate
  rw [urlparse_eq ok a h]
  refine ⟨rfl, rfl, _, rfl, fun scheme host rest hr => ?_⟩
  rw [C69_default]
  dsimp only
  rw [urlunparse_eq a h]
  exact subst_prefix hr

theorem tidied_self {a : WebAddress} (h : a.Tidy) : a.tidied = a := by
  obtain ⟨scheme, host, path, params, query, fragment⟩ := a
  obtain ⟨h1, h2, h3⟩ := h
  unfold WebAddress.tidied
  have key : ∀ o : Option Str, o ≠ some [] → (dropEmpty o) = o := by
    intro o ho
    cases o with
    | none => rfl
    | some s => cases s with
      | nil => exact absurd rfl ho
      | cons => rfl
  simp only [WebAddress.mk.injEq, true_and]
  exact ⟨key _ h1, key _ h2, key _ h3⟩

theorem written_length_le (c : Char) (o : Option Str) :
    (written c (dropEmpty o)).length ≤ (written c o).length ∧
    (o = some [] → (written c (dropEmpty o)).length < (written c o).length) := by
  cases o with
  | none => exact ⟨Nat.le_refl _, by simp⟩
  | some s => cases s with
    | nil => exact ⟨by simp [written, dropEmpty], fun _ => by simp [written, dropEmpty]⟩
    | cons c s => exact ⟨Nat.le_refl _, by simp⟩

/-- **C90 (the address).** If the address has no `$`, the stub of the generated code goes to the very address in the WSDL
document, except that parts which are only a delimiter are dropped. -/
theorem C90_exact (ok : Str → Bool) (a : WebAddress) (h : a.Ok) (hd : '$' ∉ a.rest) :
    ∃ t scheme host l, urlTemplate ok a.text = .ok t ∧ urlScheme ok a.text = .ok scheme ∧ urlNetloc ok a.text = .ok host ∧
      stubLocation t scheme host .none = .ok l ∧ l = a.tidied.text ∧ (l = a.text ↔ a.Tidy) := by
  obtain ⟨h1, h2, t, h3, h4⟩ := C90_location ok a h
  have hd' : '$' ∉ a.tidied.rest := by
    intro hc
    apply hd
    have key : ∀ c (o : Option Str), '$' ∈ written c (dropEmpty o) → '$' ∈ written c o := by
      intro c o ho
      cases o with
      | none => exact ho
      | some s => cases s with
        | nil => cases ho
        | cons => exact ho
    unfold WebAddress.rest at hc ⊢
    rcases List.mem_append.1 hc with hc | hc
    · rcases List.mem_append.1 hc with hc | hc
      · rcases List.mem_append.1 hc with hc | hc
        · simp [show '$' ∈ a.path from hc]
        · simp [key _ _ hc]
      · simp [key _ _ hc]
    · simp [key _ _ hc]
  refine ⟨t, _, _, _, h3, h1, h2, h4 _ _ _ (subst_plain hd'), rfl, ?_, fun ht => by
    show a.tidied.text = a.text
    rw [tidied_self ht]⟩
  intro he
  have hlen := congrArg List.length he
  simp only [WebAddress.text, WebAddress.rest, WebAddress.tidied, List.length_append] at hlen
  have k1 := written_length_le ';' a.params
  have k2 := written_length_le '?' a.query
  have k3 := written_length_le '#' a.fragment
  refine ⟨fun hp => ?_, fun hp => ?_, fun hp => ?_⟩
  · have := k1.2 hp; omega
  · have := k2.2 hp; omega
  · have := k3.2 hp; omega

theorem exists_cut (c : Char) (s : Str) : ∃ a o, s = a ++ written c o ∧ c ∉ a := by
  induction s with
  | nil => exact ⟨[], none, rfl, by simp⟩
  | cons d s ih =>
    by_cases hd : c = d
    · exact ⟨[], some s, by rw [hd]; rfl, by simp⟩
    · obtain ⟨a, o, hs, ha⟩ := ih
      exact ⟨d :: a, o, by rw [hs]; rfl, by simp [hd, ha]⟩

theorem exists_host (s : Str) : ∃ h r, s = h ++ r ∧ (∀ c ∈ h, c ≠ '/' ∧ c ≠ '?' ∧ c ≠ '#') ∧
    (r = [] ∨ ∃ c t, r = c :: t ∧ (c = '/' ∨ c = '?' ∨ c = '#')) := by
  induction s with
  | nil => exact ⟨[], [], rfl, by simp, .inl rfl⟩
  | cons d s ih =>
    by_cases hd : d = '/' ∨ d = '?' ∨ d = '#'
    · exact ⟨[], d :: s, rfl, by simp, .inr ⟨d, s, rfl, hd⟩⟩
    · obtain ⟨h, r, hs, h1, h2⟩ := ih
      refine ⟨d :: h, r, by rw [hs]; rfl, ?_, h2⟩
      intro c hc
      rcases List.mem_cons.1 hc with rfl | hc
      · rw [not_or, not_or] at hd; exact hd
      · exact h1 c hc

/-- **C90 (all addresses).** Every text that begins with `http://` or `https://`, has no tab or line break, and is ASCII
without brackets up to the next slash, question mark or number sign, is an address the theorems are about. -/
theorem C90_addresses (scheme s : Str) (hs : scheme = py"http" ∨ scheme = py"https")
    (hsp : ∀ c ∈ s, c ≠ '\t' ∧ c ≠ '\r' ∧ c ≠ '\n')
    (hh : ∀ p r, s = p ++ r → (∀ c ∈ p, c ≠ '/' ∧ c ≠ '?' ∧ c ≠ '#') → ∀ c ∈ p, c ≠ '[' ∧ c ≠ ']' ∧ c.toNat < 0x80) :
    ∃ a : WebAddress, a.Ok ∧ a.text = scheme ++ py"://" ++ s := by
  obtain ⟨host, r, hsr, h1, h2⟩ := exists_host s
  obtain ⟨r1, f, hf, hf1⟩ := exists_cut '#' r
  obtain ⟨r2, q, hq, hq1⟩ := exists_cut '?' r1
  have hr2 : r2 = [] ∨ ∃ t, r2 = '/' :: t := by
    cases r2 with
    | nil => exact .inl rfl
    | cons c t =>
      right
      rcases h2 with h2 | ⟨c', t', h2, hc'⟩
      · rw [h2, hq] at hf; cases hf
      · rw [h2, hq] at hf
        injection hf with hc _
        rw [← hc] at hq hq1
        refine ⟨t, ?_⟩
        rw [← hc]
        rcases hc' with rfl | rfl | rfl
        · rfl
        · exact absurd (List.mem_cons_self ..) hq1
        · rw [hq] at hf1
          exact absurd (by simp) hf1
  have hpp : ∃ path params, r2 = path ++ written ';' params ∧ (path = [] ∨ ∃ t, path = '/' :: t) ∧
      (∀ s t, path = s ++ ';' :: t → '/' ∈ t) ∧ ∀ s, params = some s → path ≠ [] ∧ '/' ∉ s := by
    rcases hr2 with hr2 | ⟨t, hr2⟩
    · exact ⟨[], none, hr2, .inl rfl, by simp, by simp⟩
    · obtain ⟨a, b, hab, hb⟩ := exists_last_slash r2 (by rw [hr2]; exact List.mem_cons_self ..)
      obtain ⟨b1, o, hb1, hb2⟩ := exists_cut ';' b
      refine ⟨a ++ '/' :: b1, o, by rw [hab, hb1]; simp, .inr ?_, ?_, ?_⟩
      · cases a with
        | nil => exact ⟨b1, rfl⟩
        | cons c a =>
          rw [hr2] at hab
          injection hab with hc _
          exact ⟨a ++ '/' :: b1, by rw [← hc]; rfl⟩
      · intro x y hxy
        rcases List.append_eq_append_iff.1 hxy with ⟨r, hr1, hr2⟩ | ⟨r, hr1, hr2⟩
        · cases r with
          | nil => injection hr2 with hc _; exact absurd hc (by decide)
          | cons c r =>
            injection hr2 with _ hr2
            exact absurd (by rw [hr2]; simp) hb2
        · cases r with
          | nil => injection hr2 with hc _; exact absurd hc (by decide)
          | cons c r =>
            injection hr2 with _ hr2
            rw [hr2]; simp
      · intro s hs
        refine ⟨by simp, fun hc => hb ?_⟩
        rw [hb1, hs]
        exact List.mem_append_right _ (List.mem_cons_of_mem _ hc)
  obtain ⟨path, params, hr2', hp1, hp2, hp3⟩ := hpp
  have hrest : r = path ++ written ';' params ++ written '?' q ++ written '#' f := by rw [hf, hq, hr2']
  have hall : ∀ c ∈ path ++ written ';' params, c ≠ '?' ∧ c ≠ '#' := by
    intro c hc
    rw [← hr2'] at hc
    refine ⟨?_, ?_⟩
    · rintro rfl; exact hq1 hc
    · rintro rfl
      rw [hq] at hf1
      exact hf1 (List.mem_append_left _ hc)
  have htext : (WebAddress.mk scheme host path params q f).text = scheme ++ py"://" ++ s := by
    unfold WebAddress.text WebAddress.rest
    rw [hsr, hrest]
    simp
  refine ⟨⟨scheme, host, path, params, q, f⟩, ⟨hs, ?_, hp1, ?_, hp2, ?_, ?_, ?_⟩, htext⟩
  · intro c hc
    obtain ⟨a, b, d⟩ := h1 c hc
    obtain ⟨e, g, k⟩ := hh host r hsr h1 c hc
    exact ⟨a, b, d, e, g, k⟩
  · intro c hc
    exact hall c (List.mem_append_left _ hc)
  · intro s hs
    refine ⟨(hp3 s hs).1, fun c hc => ?_⟩
    have := hall c (List.mem_append_right _ (by rw [show params = some s from hs]; exact List.mem_cons_of_mem _ hc))
    exact ⟨fun he => (hp3 s hs).2 (he ▸ hc), this⟩
  · intro s hs hc
    rw [hq, show q = some s from hs] at hf1
    exact hf1 (List.mem_append_right _ (List.mem_cons_of_mem _ hc))
  · rw [htext]
    intro c hc
    rcases List.mem_append.1 hc with hc | hc
    · rcases hs with rfl | rfl
      all_goals
        refine ⟨?_, ?_, ?_⟩ <;> (rintro rfl; exact absurd hc (by decide))
    · exact hsp c hc

/-! #### Other locations -/

theorem splitScheme_none {u : Str} (h : ':' ∉ u) : splitScheme u = ([], u) := by
  unfold splitScheme
  have := upTo_append (stop := (· = ':')) (s := u) (t := []) (fun c hc => by simp; rintro rfl; exact h hc) (.inl rfl)
  rw [List.append_nil] at this
  rw [this]
  cases u <;> rfl

theorem splitNetloc_none {u : Str} (h : ¬ py"//" <+: u) : splitNetloc u = ([], u) := by
  unfold splitNetloc
  split
  · exact absurd ⟨_, rfl⟩ h
  · rfl

theorem checkNetloc_nil (ok : Str → Bool) : checkNetloc ok [] = .ok () := by
  unfold checkNetloc
  simp

/-- **C90 (relative locations).** The stub for a relative location goes to an address without scheme and host. -/
theorem C90_relative (ok : Str → Bool) (u : Str)
    (h : ∀ c ∈ u, c ≠ ':' ∧ c ≠ '?' ∧ c ≠ '#' ∧ c ≠ ';' ∧ c ≠ '$' ∧ 0x20 < c.toNat) (hn : ¬ py"//" <+: u) :
    ∃ t, urlTemplate ok u = .ok t ∧ urlScheme ok u = .ok [] ∧ urlNetloc ok u = .ok [] ∧
      stubLocation t [] [] .none = .ok (py"://" ++ (if u = [] ∨ py"/" <+: u then u else '/' :: u)) := by
  have hclean : cleanUrl u = u := by
    refine cleanUrl_eq (fun c r hc => (h c (hc ▸ List.mem_cons_self ..)).2.2.2.2.2) fun c hc => ?_
    have := (h c hc).2.2.2.2.2
    refine ⟨?_, ?_, ?_⟩ <;> (rintro rfl; revert this; decide)
  have hparams : splitParams u = (u, []) := by
    have hlast : (lastSlash u).1 ++ (lastSlash u).2 = u := by
      clear hclean h hn
      induction u with
      | nil => rfl
      | cons c u ih =>
        unfold lastSlash
        split
        · simp [ih]
        · rfl
    have : ';' ∉ (lastSlash u).2 := by
      intro hc
      exact (h ';' (hlast ▸ List.mem_append_right _ hc)).2.2.2.1 rfl
    unfold splitParams
    rw [cutAt_none this, hlast]
  have hp : urlparse ok u = .ok { path := u } := by
    unfold urlparse
    rw [hclean, splitScheme_none fun hc => (h _ hc).1 rfl]
    dsimp only
    rw [splitNetloc_none hn]
    dsimp only
    rw [checkNetloc_nil, cutAt_none fun hc => (h _ hc).2.2.1 rfl]
    dsimp only
    rw [cutAt_none fun hc => (h _ hc).2.1 rfl]
    dsimp only
    rw [if_pos (by decide), hparams]
    rfl
  unfold urlTemplate urlScheme urlNetloc
  rw [hp]
  refine ⟨_, rfl, rfl, rfl, ?_⟩
  rw [C69_default]
  have hd : '$' ∉ u := fun hc => (h _ hc).2.2.2.2.1 rfl
  have hr : '$' ∉ (if u = [] ∨ py"/" <+: u then u else '/' :: u) := by
    split
    · exact hd
    · simp [hd]
  have e : urlunparse { path := u, scheme := py"${scheme}", netloc := py"${host}" } =
      py"${scheme}" ++ py"://" ++ py"${host}" ++ (if u = [] ∨ py"/" <+: u then u else '/' :: u) := by
    unfold urlunparse delimited
    have : (u.head? = some '/') ↔ py"/" <+: u := by
      cases u with
      | nil => simp
      | cons c u => simp [List.cons_prefix_cons, eq_comm]
    simp [this]
  dsimp only
  rw [e]
  exact subst_prefix (subst_plain hr)

/-- **C90 (locations with placeholders).** The location of a generated service has placeholders for scheme and host.  In
code generated from a WSDL document with such a location, placeholders are put in front of it again, and scheme and host
are empty. -/
theorem C90_templated (ok : Str → Bool) (a : WebAddress) (h : a.Ok) (ht : a.Tidy) (hd : '$' ∉ a.rest) :
    ∃ t, urlTemplate ok (py"${scheme}://${host}" ++ a.rest) = .ok t ∧
      urlScheme ok (py"${scheme}://${host}" ++ a.rest) = .ok [] ∧
      urlNetloc ok (py"${scheme}://${host}" ++ a.rest) = .ok [] ∧
      ∀ scheme host, stubLocation t scheme host .none =
        .ok (scheme ++ py"://" ++ host ++ py"/" ++ scheme ++ py"://" ++ host ++ a.rest) := by
  have hclean : cleanUrl (py"${scheme}://${host}" ++ a.rest) = py"${scheme}://${host}" ++ a.rest := by
    refine cleanUrl_eq (fun c r hc => ?_) fun c hc => ?_
    · injection hc with hc _
      subst hc
      decide
    · rcases List.mem_append.1 hc with hc | hc
      · have key : ∀ c ∈ py"${scheme}://${host}", c ≠ '\t' ∧ c ≠ '\r' ∧ c ≠ '\n' := by decide
        exact key c hc
      · refine h.spaces c ?_
        unfold WebAddress.text
        simp [hc]
  have hscheme : splitScheme (py"${scheme}://${host}" ++ a.rest) = ([], py"${scheme}://${host}" ++ a.rest) := by
    unfold splitScheme
    have := upTo_append (stop := (· = ':')) (s := py"${scheme}") (t := py"://${host}" ++ a.rest) (by decide)
      (.inr ⟨':', _, rfl, by simp⟩)
    rw [show py"${scheme}://${host}" ++ a.rest = py"${scheme}" ++ (py"://${host}" ++ a.rest) from rfl, this]
    rfl
  have hnet : splitNetloc (py"${scheme}://${host}" ++ a.rest) = ([], py"${scheme}://${host}" ++ a.rest) :=
    splitNetloc_none (by
      rintro ⟨r, hr⟩
      injection hr with hr _
      exact absurd hr (by decide))
  have hparams : splitParams (py"${scheme}://${host}" ++ (a.path ++ written ';' a.params)) =
      (py"${scheme}://${host}" ++ a.path, a.params.getD []) := by
    rw [← List.append_assoc]
    refine splitParams_eq (.inr (by simp)) ?_ fun s hs => ⟨by simp, (h.params s hs).2⟩
    intro s t he
    rcases List.append_eq_append_iff.1 he with ⟨r, hr1, hr2⟩ | ⟨r, hr1, hr2⟩
    · exact h.lastSegment r t hr2
    · cases r with
      | nil => exact h.lastSegment [] t hr2.symm
      | cons c r =>
        injection hr2 with hc _
        subst hc
        have : ';' ∈ py"${scheme}://${host}" := by rw [hr1]; simp
        exact absurd this (by decide)
  have hp : urlparse ok (py"${scheme}://${host}" ++ a.rest) =
      .ok { path := py"${scheme}://${host}" ++ a.path, params := a.params.getD [], query := a.query.getD []
            fragment := a.fragment.getD [] } := by
    unfold urlparse
    rw [hclean, hscheme]
    dsimp only
    rw [hnet]
    dsimp only
    rw [checkNetloc_nil, cut_fragment _ a h (by decide)]
    dsimp only
    rw [cut_query _ a h (by decide)]
    dsimp only
    rw [if_pos (by decide), hparams]
    rfl
  unfold urlTemplate urlScheme urlNetloc
  rw [hp]
  refine ⟨_, rfl, rfl, rfl, fun scheme host => ?_⟩
  rw [C69_default]
  have e : urlunparse ⟨py"${scheme}", py"${host}", py"${scheme}://${host}" ++ a.path, a.params.getD [], a.query.getD [],
      a.fragment.getD []⟩ =
      py"${scheme}" ++ py"://" ++ py"${host}" ++ ('/' :: (py"${scheme}" ++ py"://" ++ py"${host}" ++ a.rest)) := by
    have := congrArg WebAddress.rest (tidied_self ht)
    simp only [WebAddress.tidied, WebAddress.rest] at this
    unfold urlunparse
    simp only [delimited_written]
    rw [if_neg (by simp)]
    simp only [WebAddress.rest]
    simp only [← this]
    simp
  dsimp only
  rw [e]
  have := subst_prefix (scheme := scheme) (host := host) (subst_plain (val := schemeAndHost scheme host) hd)
  have := subst_prefix (Subst.char (c := '/') (by decide) this)
  have e2 : scheme ++ py"://" ++ host ++ '/' :: (scheme ++ py"://" ++ host ++ a.rest) =
      scheme ++ py"://" ++ host ++ py"/" ++ scheme ++ py"://" ++ host ++ a.rest := by simp
  rw [e2] at this
  exact this

namespace Ex

/-- `https://api.example.org:8443/orders/v2;a=1?wsdl#top` -/
def shopAddress : WebAddress where
  scheme := py"https"
  host := py"api.example.org:8443"
  path := py"/orders/v2"
  params := some py"a=1"
  query := some py"wsdl"
  fragment := some py"top"

theorem shopAddress_ok : shopAddress.Ok where
  scheme := .inr rfl
  host := by decide
  path := .inr ⟨_, rfl⟩
  pathChars := by decide
  lastSegment := by
    intro s t h
    have : ';' ∈ shopAddress.path := by rw [h]; simp
    exact absurd this (by decide)
  params := by
    intro s h
    cases h
    decide
  query := by
    intro s h
    cases h
    decide
  spaces := by decide

example (ok : Str → Bool) : ∃ t scheme host, urlTemplate ok shopAddress.text = .ok t ∧
    urlScheme ok shopAddress.text = .ok scheme ∧ urlNetloc ok shopAddress.text = .ok host ∧
    stubLocation t scheme host .none = .ok py"https://api.example.org:8443/orders/v2;a=1?wsdl#top" := by
  obtain ⟨t, s, h, l, h1, h2, h3, h4, h5, h6⟩ := C90_exact ok shopAddress shopAddress_ok (by decide)
  exact ⟨t, s, h, h1, h2, h3, by rw [h4, h5]; rfl⟩

example (ok : Str → Bool) : urlTemplate ok py"http://a.b:80/c/d?e" = .ok py"${scheme}://${host}/c/d?e" := rfl

/-- Characters that the address loses: capital letters of the scheme, a question mark before nothing. -/
example (ok : Str → Bool) : urlTemplate ok py"HTTP://a.b/c?" = .ok py"${scheme}://${host}/c" ∧
    urlScheme ok py"HTTP://a.b/c?" = .ok py"http" := ⟨rfl, rfl⟩

/-- **C90 (dollar signs).** A path with `$host` or with two dollar signs is changed. -/
theorem C90_dollar : ∃ t, urlTemplate (fun _ => true) py"http://a.b/c/$host/$$d" = .ok t ∧
    stubLocation t py"http" py"a.b" .none = .ok py"http://a.b/c/a.b/$d" := ⟨_, rfl, by decide⟩

/-- A location such as a schema browser may show it, and one without a scheme. -/
example (ok : Str → Bool) : ∃ t, urlTemplate ok py"services/orders" = .ok t ∧
    stubLocation t [] [] .none = .ok py":///services/orders" := by
  obtain ⟨t, h1, _, _, h2⟩ := C90_relative ok py"services/orders" (by decide) (by decide)
  exact ⟨t, h1, h2⟩

example (ok : Str → Bool) : urlTemplate ok py"${scheme}://${host}/orders" =
    .ok py"${scheme}://${host}/${scheme}://${host}/orders" := rfl

end Ex

end Soapfish
