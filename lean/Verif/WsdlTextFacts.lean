import Verif.WsdlTextModule
/-
What the templates for WSDL documents take care of: names of schemas and header classes, the pattern in the comment.
-/
namespace Soapfish

section
variable {digest : Str → Str} {netlocOk : Str → Bool}

theorem regular_header (hd : HexDigits digest) {definitions message headers : Val} {o : Option PyHeader} (h : headerCode digest definitions message headers = .ok o) :
    ∀ x, o = some x → Identifier x.schema := by
  unfold headerCode at h
  split at h
  · obtain ⟨s, hs, h⟩ := bind_eq_ok.1 h
    obtain ⟨fs, _, h⟩ := bind_eq_ok.1 h
    rintro x rfl
    rw [← Option.some.inj (Except.ok.inj h)]
    split at hs
    · exact ident_schema hd hs
    · cases hs
  · rintro x rfl
    cases h

theorem regular_method (hd : HexDigits digest) {server : Bool} {definitions binding operation : Val} {m : PyMethod}
    (h : methodCode digest server definitions binding operation = .ok m) : m.Regular := by
  unfold methodCode at h
  obtain ⟨_, _, h⟩ := bind_eq_ok.1 h
  obtain ⟨_, _, h⟩ := bind_eq_ok.1 h
  obtain ⟨_, _, h⟩ := bind_eq_ok.1 h
  obtain ⟨_, _, h⟩ := bind_eq_ok.1 h
  obtain ⟨ih, h1, h⟩ := bind_eq_ok.1 h
  obtain ⟨oh, h2, h⟩ := bind_eq_ok.1 h
  obtain ⟨_, _, h⟩ := bind_eq_ok.1 h
  obtain ⟨_, _, h⟩ := bind_eq_ok.1 h
  rw [← Except.ok.inj h]
  refine ⟨fun x hx => ?_, fun n hn => ?_, fun n hn => ?_⟩
  · rcases List.mem_append.1 hx with hx | hx
    · exact regular_header hd h1 x (Option.mem_toList.1 hx)
    · exact regular_header hd h2 x (Option.mem_toList.1 hx)
  · obtain ⟨x, hx, rfl⟩ := Option.map_eq_some_iff.1 hn
    exact ⟨x, List.mem_append.2 (.inl (Option.mem_toList.2 hx)), rfl⟩
  · obtain ⟨x, hx, rfl⟩ := Option.map_eq_some_iff.1 hn
    exact ⟨x, List.mem_append.2 (.inr (Option.mem_toList.2 hx)), rfl⟩

theorem regex_ok {url : Str} {u : Unit} (h : (do let _ ← urlparse netlocOk url; .ok () : Except Exn Unit) = .ok u) : ∃ r, urlRegex netlocOk url = .ok r := by
  obtain ⟨p, hp, _⟩ := bind_eq_ok.1 h
  exact ⟨_, bind_eq_ok.2 ⟨p, hp, rfl⟩⟩

theorem regexOf_ok {service : Val} {u : Unit} (h : regexComment netlocOk service = .ok u) : ∃ r, regexOf netlocOk service = .ok r := by
  unfold regexComment at h
  unfold regexOf
  cases hl : (readList service py"ports").head?.bind addressOf with
  | none => rw [hl] at h; cases h
  | some l => rw [hl] at h; exact regex_ok h

/-- A port is regular, and its pattern is there. -/
theorem regular_port (hd : HexDigits digest) {server : Bool} {v : Version} {definitions service port : Val} {r : Option PyPort}
    (h : portCode digest netlocOk server v definitions service port = .ok r) : (∀ p, r = some p → p.Regular) ∧
    ∃ o : Option Str, (do
      if ← isHttp definitions port then .ok (some (← if server then regexOf netlocOk service else .ok []))
      else .ok none : Except Exn (Option Str)) = .ok o ∧ o.isSome = r.isSome := by
  unfold portCode at h
  obtain ⟨bs, h1, h⟩ := bind_eq_ok.1 h
  obtain ⟨b, h2, h⟩ := bind_eq_ok.1 h
  obtain ⟨binding, h3, h⟩ := bind_eq_ok.1 h
  have hh : isHttp definitions port = .ok (decide ((readChild binding py"binding").bind (readStr · py"transport") = some nsSoapHttp)) :=
    bind_eq_ok.2 ⟨bs, h1, bind_eq_ok.2 ⟨b, h2, bind_eq_ok.2 ⟨binding, h3, rfl⟩⟩⟩
  rw [hh]
  split at h
  · rename_i ht
    rw [decide_eq_true ht]
    obtain ⟨fs, _, h⟩ := bind_eq_ok.1 h
    obtain ⟨ms, hm, h⟩ := bind_eq_ok.1 h
    obtain ⟨_, _, h⟩ := bind_eq_ok.1 h
    obtain ⟨ss, hs, h⟩ := bind_eq_ok.1 h
    obtain ⟨st, hst, h⟩ := bind_eq_ok.1 h
    rw [← Except.ok.inj h]
    refine ⟨?_, ?_⟩
    · rintro p ⟨⟩
      refine ⟨fun m hm' => ?_, fun n hn => ?_⟩
      · obtain ⟨_, _, h5⟩ := (mapE_all2 hm).mem_right hm'
        exact regular_method hd h5
      · obtain ⟨_, _, h5⟩ := (mapE_all2 hs).mem_right hn
        exact ident_schema hd h5
    · cases server with
      | false => exact ⟨some [], rfl, rfl⟩
      | true =>
        obtain ⟨u, hu, _⟩ := bind_eq_ok.1 hst
        obtain ⟨x, hx⟩ := regexOf_ok hu
        refine ⟨some x, ?_, rfl⟩
        show (regexOf netlocOk service >>= fun y => .ok (some y)) = _
        rw [hx]
        rfl
  · rename_i ht
    rw [decide_eq_false ht]
    rw [← Except.ok.inj h]
    exact ⟨(fun _ h => nomatch h), none, rfl, rfl⟩

theorem mapE_length {α β γ : Type} {f : α → Except Exn (Option β)} {g : α → Except Exn (Option γ)} : ∀ {l : List α} {rs : List (Option β)}, mapE f l = .ok rs →
    (∀ a r, f a = .ok r → ∃ o, g a = .ok o ∧ o.isSome = r.isSome) → ∃ os, mapE g l = .ok os ∧ (os.filterMap id).length = (rs.filterMap id).length
  | [], rs, h, _ => ⟨[], rfl, by rw [← Except.ok.inj h]; rfl⟩
  | a :: l, rs, h, hg => by
    obtain ⟨r, h1, h⟩ := bind_eq_ok.1 (show (f a >>= fun b => mapE f l >>= fun bs => .ok (b :: bs)) = .ok rs from h)
    obtain ⟨rs', h2, h⟩ := bind_eq_ok.1 h
    obtain ⟨o, h3, h4⟩ := hg a r h1
    obtain ⟨os, h5, h6⟩ := mapE_length h2 hg
    refine ⟨o :: os, ?_, ?_⟩
    · show (g a >>= fun b => mapE g l >>= fun bs => .ok (b :: bs)) = _
      rw [h3, h5]
      rfl
    · rw [← Except.ok.inj h]
      cases o <;> cases r <;> simp only [Option.isSome] at h4
      · exact h6
      · cases h4
      · cases h4
      · exact congrArg Nat.succ h6

/-! ### The pattern -/

theorem mem_dropWhile {α : Type} {p : α → Bool} : ∀ {l : List α} {x : α}, x ∈ l.dropWhile p → x ∈ l := fun h => (List.dropWhile_suffix p).subset h

theorem mem_takeWhile' {α : Type} {p : α → Bool} : ∀ {l : List α} {x : α}, x ∈ l.takeWhile p → x ∈ l := fun h => (List.takeWhile_prefix p).subset h

theorem mem_splitScheme {url : Str} {c : Char} (h : c ∈ (splitScheme url).2) : c ∈ url := by
  unfold splitScheme at h
  split at h
  · rename_i a as b rest heq
    split at h
    · have h1 : (upTo (· = ':') url).2 = b :: rest := by rw [heq]
      have h2 : c ∈ (upTo (· = ':') url).2 := by rw [h1]; exact List.mem_cons_of_mem _ h
      exact mem_dropWhile h2
    · exact h
  · exact h

theorem mem_splitNetloc {url : Str} {c : Char} (h : c ∈ (splitNetloc url).2) : c ∈ url := by
  unfold splitNetloc at h
  split at h
  · exact List.mem_cons_of_mem _ (List.mem_cons_of_mem _ (mem_dropWhile h))
  · exact h

theorem mem_lastSlash : ∀ {s : Str} {c : Char}, c ∈ (lastSlash s).1 ∨ c ∈ (lastSlash s).2 → c ∈ s
  | [], _, h => by rcases h with h | h <;> cases h
  | a :: s, c, h => by
    unfold lastSlash at h
    split at h
    · rcases h with h | h
      · rcases List.mem_cons.1 h with rfl | h
        · exact List.mem_cons_self ..
        · exact List.mem_cons_of_mem _ (mem_lastSlash (.inl h))
      · exact List.mem_cons_of_mem _ (mem_lastSlash (.inr h))
    · rcases h with h | h
      · cases h
      · exact h

theorem mem_splitParams {s : Str} {c : Char} (h : c ∈ (splitParams s).1) : c ∈ s := by
  rcases List.mem_append.1 h with h | h
  · exact mem_lastSlash (.inl h)
  · exact mem_lastSlash (.inr (mem_takeWhile' h))

theorem mem_path {url : Str} {u : Url} (h : urlparse netlocOk url = .ok u) {c : Char} (hc : c ∈ u.path) : c ∈ cleanUrl url := by
  unfold urlparse at h
  obtain ⟨_, _, h⟩ := bind_eq_ok.1 h
  rw [← Except.ok.inj h] at hc
  have hc : c ∈ (if (splitScheme (cleanUrl url)).1 ∈ usesParams then splitParams (cutAt '?' (cutAt '#' (splitNetloc (splitScheme (cleanUrl url)).2).2).1).1
    else ((cutAt '?' (cutAt '#' (splitNetloc (splitScheme (cleanUrl url)).2).2).1).1, [])).1 := hc
  have key : c ∈ (cutAt '?' (cutAt '#' (splitNetloc (splitScheme (cleanUrl url)).2).2).1).1 → c ∈ cleanUrl url :=
    fun h => mem_splitScheme (mem_splitNetloc (mem_takeWhile' (mem_takeWhile' h)))
  split at hc
  · exact key (mem_splitParams hc)
  · exact key hc

theorem oneLine_regex {url r : Str} (h : urlRegex netlocOk url = .ok r) (hn : Char.ofNat 0 ∉ url) : OneLine r := by
  unfold urlRegex at h
  obtain ⟨u, hu, h⟩ := bind_eq_ok.1 h
  rw [← Except.ok.inj h]
  refine (oneLine_of (s := py"^") rfl).append (OneLine.append ?_ (oneLine_of (s := py"$") rfl))
  intro c hc
  obtain ⟨d, hd, hc⟩ := List.mem_flatMap.1 hc
  have h1 := mem_path hu (mem_dropWhile hd)
  unfold cleanUrl at h1
  obtain ⟨h2, h3⟩ := List.mem_filter.1 h1
  have h4 : d ≠ '\n' ∧ d ≠ '\r' ∧ d ≠ Char.ofNat 0 := by
    refine ⟨?_, ?_, fun he => hn (he ▸ mem_dropWhile h2)⟩
    · rintro rfl; exact absurd h3 (by decide)
    · rintro rfl; exact absurd h3 (by decide)
  split at hc
  · rcases List.mem_cons.1 hc with rfl | hc
    · decide
    · rw [List.mem_singleton.1 hc]; exact h4
  · rw [List.mem_singleton.1 hc]; exact h4

theorem oneLine_regexOf {service : Val} {r : Str} (h : regexOf netlocOk service = .ok r) (hn : ∀ p ∈ readList service py"ports", ∀ u, addressOf p = some u → Char.ofNat 0 ∉ u) : OneLine r := by
  unfold regexOf at h
  cases hl : readList service py"ports" with
  | nil => rw [hl] at h; cases h
  | cons p ps =>
    rw [hl] at h
    have h : onUrl (urlRegex netlocOk) (addressOf p) = .ok r := h
    cases ha : addressOf p with
    | none => rw [ha] at h; cases h
    | some u =>
      rw [ha] at h
      exact oneLine_regex h (hn p (by rw [hl]; exact List.mem_cons_self ..) u ha)

end

end Soapfish
