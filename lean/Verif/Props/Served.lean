import Verif.Props.Dispatch
/-
Serving the WSDL and schemas (C47, C48).
-/
namespace Soapfish

/-! ### Vocabulary -/

/-- The first character of a placeholder name: an ASCII letter or an underscore. -/
def IdStart (c : Char) : Prop := c = '_' ∨ (0x41 ≤ c.toNat ∧ c.toNat ≤ 0x5a) ∨ (0x61 ≤ c.toNat ∧ c.toNat ≤ 0x7a)

/-- Further characters: digits, too. -/
def IdChar (c : Char) : Prop := IdStart c ∨ (0x30 ≤ c.toNat ∧ c.toNat ≤ 0x39)

/-- A name of a placeholder. -/
def Ident (n : Str) : Prop := ∃ c cs, n = c :: cs ∧ IdStart c ∧ ∀ x ∈ cs, IdChar x

/-- `Subst val s t`: `t` is `s` with every `$name` and `${name}` that has a value replaced by it, and every `$$` by `$`. -/
inductive Subst (val : Str → Option Str) : Str → Str → Prop where
  | nil : Subst val [] []
  | char {c s t} : c ≠ '$' → Subst val s t → Subst val (c :: s) (c :: t)
  | dollar {s t} : Subst val s t → Subst val ('$' :: '$' :: s) ('$' :: t)
  | named {n s t} : Ident n → (∀ c r, s = c :: r → ¬ IdChar c) → Subst val s t →
      Subst val ('$' :: (n ++ s)) ((val n).getD ('$' :: n) ++ t)
  | braced {n s t} : Ident n → Subst val s t →
      Subst val ('$' :: '{' :: (n ++ '}' :: s)) ((val n).getD ('$' :: '{' :: (n ++ ['}'])) ++ t)
  | lone {s t} : (∀ r, s ≠ '$' :: r) → (∀ c r, s = c :: r → ¬ IdStart c) →
      (∀ n r, Ident n → s ≠ '{' :: (n ++ '}' :: r)) → Subst val s t → Subst val ('$' :: s) ('$' :: t)

/-! ### Lemmas -/

theorem isIdStart_iff {c : Char} : isIdStart c = true ↔ IdStart c := by
  simp [isIdStart, IdStart, or_assoc]

theorem isIdChar_iff {c : Char} : isIdChar c = true ↔ IdChar c := by
  simp [isIdChar, IdChar, isIdStart_iff]

theorem takeWhile_next {α} {p : α → Bool} {l : List α} : ∀ c r, l.drop (l.takeWhile p).length = c :: r → p c = false := by
  induction l with
  | nil => intro c r h; cases h
  | cons a l ih =>
    intro c r h
    cases ha : p a with
    | true =>
      rw [List.takeWhile_cons, if_pos ha] at h
      exact ih c r h
    | false =>
      rw [List.takeWhile_cons, if_neg (by simp [ha])] at h
      injection h with h _
      rw [← h]
      exact ha

theorem mem_takeWhile_true {α} {p : α → Bool} {l : List α} {x : α} (h : x ∈ l.takeWhile p) : p x = true := by
  induction l with
  | nil => cases h
  | cons a l ih =>
    cases ha : p a with
    | true =>
      rw [List.takeWhile_cons, if_pos ha] at h
      rcases List.mem_cons.1 h with rfl | h
      · exact ha
      · exact ih h
    | false => rw [List.takeWhile_cons, if_neg (by simp [ha])] at h; cases h

theorem identPrefix_spec {s : Str} (h : identPrefix s ≠ []) :
    Ident (identPrefix s) ∧ s = identPrefix s ++ s.drop (identPrefix s).length ∧
    ∀ c r, s.drop (identPrefix s).length = c :: r → ¬ IdChar c := by
  cases s with
  | nil => exact absurd rfl h
  | cons c s =>
    by_cases hc : isIdStart c = true
    · have e : identPrefix (c :: s) = c :: s.takeWhile isIdChar := by simp [identPrefix, hc]
      rw [e]
      refine ⟨⟨c, _, rfl, isIdStart_iff.1 hc, fun x hx => isIdChar_iff.1 (mem_takeWhile_true hx)⟩, ?_, ?_⟩
      · have : ∀ l : Str, l = l.takeWhile isIdChar ++ l.drop (l.takeWhile isIdChar).length := by
          intro l
          induction l with
          | nil => rfl
          | cons a l ih =>
            cases ha : isIdChar a with
            | true =>
              rw [List.takeWhile_cons, if_pos ha]
              simp only [List.length_cons, List.drop_succ_cons, List.cons_append]
              rw [← ih]
            | false => rw [List.takeWhile_cons, if_neg (by simp [ha])]; rfl
        simp only [List.length_cons, List.drop_succ_cons, List.cons_append]
        rw [← this s]
      · intro x r hr hx
        simp only [List.length_cons, List.drop_succ_cons] at hr
        have := takeWhile_next x r hr
        rw [isIdChar_iff.2 hx] at this
        cases this
    · exfalso
      apply h
      simp [identPrefix, hc]

theorem identPrefix_eq {n s : Str} (hn : Ident n) (hs : ∀ c r, s = c :: r → ¬ IdChar c) : identPrefix (n ++ s) = n := by
  obtain ⟨c, cs, rfl, hc, hcs⟩ := hn
  simp only [List.cons_append, identPrefix, isIdStart_iff.2 hc, if_true]
  congr 1
  induction cs with
  | nil =>
    cases s with
    | nil => rfl
    | cons a s =>
      have : isIdChar a = false := by
        cases h : isIdChar a with
        | false => rfl
        | true => exact absurd (isIdChar_iff.1 h) (hs a s rfl)
      simp [this]
  | cons a cs ih =>
    rw [List.cons_append, List.takeWhile_cons, if_pos (isIdChar_iff.2 (hcs a (by simp))),
      ih fun x hx => hcs x (by simp [hx])]

theorem identPrefix_nil {s : Str} (h : ∀ c r, s = c :: r → ¬ IdStart c) : identPrefix s = [] := by
  cases s with
  | nil => rfl
  | cons c s =>
    have : ¬ isIdStart c = true := fun hc => h c s rfl (isIdStart_iff.1 hc)
    simp [identPrefix, this]

theorem Ident.head {n : Str} (h : Ident n) : ∃ c cs, n = c :: cs ∧ IdStart c ∧ c ≠ '$' ∧ c ≠ '{' := by
  obtain ⟨c, cs, rfl, hc, _⟩ := h
  refine ⟨c, cs, rfl, hc, ?_, ?_⟩
  · rintro rfl; revert hc; unfold IdStart; decide
  · rintro rfl; revert hc; unfold IdStart; decide

theorem not_idChar_brace : ¬ IdChar '}' := by unfold IdChar IdStart; decide

theorem placeholder_eq (m : Dict Str) (n w : Str) : placeholder m n w = (m.get? n).getD w := by
  unfold placeholder
  cases m.get? n <;> rfl

/-- The computed text is a substitution. -/
theorem subst_aux (m : Dict Str) (k : Nat) : ∀ s : Str, s.length ≤ k → Subst m.get? s (substAux m k s) := by
  induction k with
  | zero =>
    intro s hs
    cases s with
    | nil => exact .nil
    | cons c s => simp at hs
  | succ k ih =>
    intro s hs
    cases s with
    | nil => exact .nil
    | cons c r =>
      have hr : r.length ≤ k := by simpa using hs
      unfold substAux
      by_cases hc : c = '$'
      · subst hc
        rw [if_pos rfl]
        cases r with
        | nil =>
          exact .lone (by simp) (by simp) (by simp) .nil
        | cons d r' =>
          have hr' : r'.length ≤ k := by simp at hr; omega
          simp only
          by_cases hd : d = '$'
          · subst hd
            rw [if_pos rfl]
            exact .dollar (ih r' hr')
          · rw [if_neg hd]
            by_cases hi : identPrefix (d :: r') ≠ []
            · rw [if_pos hi]
              obtain ⟨h1, h2, h3⟩ := identPrefix_spec hi
              rw [placeholder_eq]
              have := Subst.named (val := m.get?) h1 h3 (ih ((d :: r').drop (identPrefix (d :: r')).length) (by
                rw [List.length_drop]; omega))
              rwa [← h2] at this
            · rw [if_neg hi]
              have hd' : ∀ c r, d :: r' = c :: r → ¬ IdStart c := by
                intro c r hcr hst
                injection hcr with h1 _
                subst h1
                apply hi
                simp [identPrefix, isIdStart_iff.2 hst]
              split
              · next hb =>
                obtain ⟨rfl, hi', hh⟩ := hb
                obtain ⟨h1, h2, h3⟩ := identPrefix_spec hi'
                rw [placeholder_eq]
                have e : r'.drop (identPrefix r').length = '}' :: r'.drop ((identPrefix r').length + 1) := by
                  cases hx : r'.drop (identPrefix r').length with
                  | nil => rw [hx] at hh; cases hh
                  | cons a l =>
                    rw [hx] at hh
                    injection hh with hh
                    subst hh
                    rw [← List.drop_drop, hx]
                    rfl
                have := Subst.braced (val := m.get?) h1 (ih (r'.drop ((identPrefix r').length + 1)) (by
                  rw [List.length_drop]; omega))
                rwa [← e, ← h2] at this
              · next hb =>
                refine .lone (fun r h => hd (by injection h)) hd' ?_ (ih _ hr)
                intro n r hn h
                injection h with h1 h2
                subst h1
                have hn' : identPrefix r' = n := by
                  rw [h2]
                  exact identPrefix_eq hn (fun c r h => by injection h with h _; rw [← h]; exact not_idChar_brace)
                apply hb
                refine ⟨rfl, ?_, ?_⟩
                · rw [hn']
                  obtain ⟨c, cs, rfl, _⟩ := hn
                  simp
                · rw [hn', h2, List.drop_left]
                  rfl
      · rw [if_neg hc]
        exact .char hc (ih r hr)

/-- It is the only one. -/
theorem subst_unique (m : Dict Str) {s t : Str} (h : Subst m.get? s t) : ∀ k, s.length ≤ k → substAux m k s = t := by
  induction h with
  | nil => intro k _; cases k <;> rfl
  | char hc _ ih =>
    intro k hk
    cases k with
    | zero => simp at hk
    | succ k =>
      unfold substAux
      rw [if_neg hc, ih k (by simpa using hk)]
  | dollar _ ih =>
    intro k hk
    cases k with
    | zero => simp at hk
    | succ k =>
      unfold substAux
      rw [if_pos rfl]
      simp only [if_true]
      rw [ih k (by simp at hk; omega)]
  | @named n s t hn hs _ ih =>
    intro k hk
    cases k with
    | zero => simp at hk
    | succ k =>
      have hi := identPrefix_eq hn hs
      obtain ⟨c, cs, rfl, hst, hc, _⟩ := hn.head
      have : substAux m (k + 1) ('$' :: (c :: cs ++ s)) =
          placeholder m (identPrefix (c :: cs ++ s)) ('$' :: identPrefix (c :: cs ++ s)) ++
            substAux m k ((c :: cs ++ s).drop (identPrefix (c :: cs ++ s)).length) := by
        have hne : identPrefix (c :: (cs ++ s)) ≠ [] := by
          have hi' : identPrefix (c :: (cs ++ s)) = c :: cs := hi
          rw [hi']; simp
        conv => lhs; unfold substAux
        rw [if_pos rfl]
        simp only [List.cons_append]
        rw [if_neg hc, if_pos hne]
      rw [this, hi, placeholder_eq, List.drop_left, ih k (by simp at hk; omega)]
  | @braced n s t hn _ ih =>
    intro k hk
    cases k with
    | zero => simp at hk
    | succ k =>
      have hi : identPrefix (n ++ '}' :: s) = n :=
        identPrefix_eq hn fun c r h => by injection h with h _; rw [← h]; exact not_idChar_brace
      have hne : n ≠ [] := by obtain ⟨c, cs, rfl, _⟩ := hn; simp
      have hb : identPrefix ('{' :: (n ++ '}' :: s)) = [] := by
        apply identPrefix_nil
        intro c r h
        injection h with h _
        rw [← h]
        unfold IdStart
        decide
      unfold substAux
      rw [if_pos rfl]
      dsimp only
      rw [if_neg (by decide), if_neg (by rw [hb]; simp), if_pos ⟨rfl, by rw [hi]; exact hne, by rw [hi, List.drop_left]; rfl⟩,
        hi, placeholder_eq]
      congr 1
      have : (n ++ '}' :: s).drop (n.length + 1) = s := by
        rw [← List.drop_drop, List.drop_left]
        rfl
      rw [this]
      exact ih k (by simp at hk; omega)
  | @lone s t h1 h2 h3 _ ih =>
    intro k hk
    cases k with
    | zero => simp at hk
    | succ k =>
      unfold substAux
      rw [if_pos rfl]
      cases s with
      | nil =>
        simp only
        have := ih k (by simp)
        have e : substAux m k [] = [] := by cases k <;> rfl
        rw [e] at this
        rw [← this]
      | cons d r =>
        simp only
        rw [if_neg (fun h => h1 r (by rw [h])), if_neg (by rw [identPrefix_nil h2]; simp), if_neg ?_,
          ih k (by simpa using hk)]
        rintro ⟨rfl, hi, hh⟩
        obtain ⟨g1, g2, g3⟩ := identPrefix_spec hi
        cases hx : r.drop (identPrefix r).length with
        | nil => rw [hx] at hh; cases hh
        | cons a l =>
          rw [hx] at hh g2
          injection hh with hh
          subst hh
          exact h3 _ l g1 (by rw [← g2])

theorem safeSubstitute_iff (m : Dict Str) (s t : Str) : safeSubstitute m s = t ↔ Subst m.get? s t :=
  ⟨fun h => h ▸ subst_aux m s.length s (Nat.le_refl _), fun h => subst_unique m h s.length (Nat.le_refl _)⟩

/-! ### C47: the WSDL -/

/-- The value of a placeholder. -/
def schemeAndHost (scheme host : Str) (name : Str) : Option Str :=
  if name = py"scheme" then some scheme else if name = py"host" then some host else none

/-- The scheme of a request. -/
inductive Scheme (env : Env) : Str → Prop where
  | forwarded {v} : env py"X_FORWARDED_PROTO" = some v → Scheme env v
  | wsgi {v} : env py"X_FORWARDED_PROTO" = none → env py"wsgi.url_scheme" = some v → Scheme env v
  | default : env py"X_FORWARDED_PROTO" = none → env py"wsgi.url_scheme" = none → Scheme env py"http"

theorem scheme_eq {env : Env} {v : Str} (h : Scheme env v) :
    (env py"X_FORWARDED_PROTO").getD ((env py"wsgi.url_scheme").getD py"http") = v := by
  cases h with
  | forwarded h => rw [h]; rfl
  | wsgi h1 h2 => rw [h1, h2]; rfl
  | default h1 h2 => rw [h1, h2]; rfl

theorem handleWsdl_plain {W : World} {d : DispId} {r : ReqId} {s : State} {q : Req} {b : Bytes}
    (hq : s.reqs[r]? = some q) (h1 : (W.disp d).hooks.get? py"wsdl-request" = none)
    (h2 : (W.disp d).hooks.get? py"wsdl-response" = none) (hb : wsdlFor W (W.disp d) q.environ = .ok b) :
    handleWsdl W d r s = (.ok ⟨Val.none, .val (.atom (.str py"wsdl")), 200, [(py"Content-Type", py"text/xml")], .bytes b⟩, s) := by
  unfold handleWsdl
  simp only [M_bind, callRequestHook_none h1, M.pure_bind, callResponseHook_none h2]
  rw [M.bind_ok (getReq_some hq), M.lift_ok hb]
  rfl

/-- **C47.** The WSDL that is served is the stored one with `$scheme`, `${scheme}`, `$host` and `${host}` replaced and
`$$` reduced to `$`; nothing else is changed. -/
theorem C47_served (W : World) (d : DispId) (r : ReqId) (s : State) (q : Req) (scheme host text : Str)
    (hq : s.reqs[r]? = some q) (ha : AsksWsdl q) (h1 : (W.disp d).hooks.get? py"wsdl-request" = none)
    (h2 : (W.disp d).hooks.get? py"wsdl-response" = none) (hs : Scheme q.environ scheme) (hs' : scheme ≠ [])
    (hh : q.environ py"HTTP_HOST" = some host) (hh' : host ≠ []) (ht : W.decode (W.disp d).wsdl = .ok text) :
    ∃ t, Subst (schemeAndHost scheme host) text t ∧ dispatch W d r s =
      (.ok ⟨Val.none, .val (.atom (.str py"wsdl")), 200, [(py"Content-Type", py"text/xml")], .bytes (W.encode t)⟩, s) := by
  have hval : Dict.get? [(py"scheme", scheme), (py"host", host)] = schemeAndHost scheme host := by
    funext n
    simp only [Dict.get?, schemeAndHost, eq_comm (b := n)]
  refine ⟨safeSubstitute [(py"scheme", scheme), (py"host", host)] text, ?_, ?_⟩
  · rw [← hval]
    exact (safeSubstitute_iff _ _ _).1 rfl
  · rw [C37_wsdl W d r s q hq ha]
    refine handleWsdl_plain hq h1 h2 ?_
    unfold wsdlFor
    simp only [scheme_eq hs]
    rw [if_pos ⟨hs', truthy_iff.2 ⟨host, hh, hh'⟩⟩, ht, hh]
    rfl

/-- **C47 (determinism).** The substitution is a function of text and values. -/
theorem C47_unique (scheme host text t t' : Str) (h : Subst (schemeAndHost scheme host) text t)
    (h' : Subst (schemeAndHost scheme host) text t') : t = t' := by
  have hval : Dict.get? [(py"scheme", scheme), (py"host", host)] = schemeAndHost scheme host := by
    funext n
    simp only [Dict.get?, schemeAndHost, eq_comm (b := n)]
  rw [← hval] at h h'
  exact ((safeSubstitute_iff _ _ _).2 h).symm.trans ((safeSubstitute_iff _ _ _).2 h')

/-- **C47 (no placeholders).** A text without `$` is not changed. -/
theorem C47_no_dollar (val : Str → Option Str) (text t : Str) (h : '$' ∉ text) (hs : Subst val text t) : t = text := by
  induction hs with
  | nil => rfl
  | char hc _ ih => rw [ih (by simp at h; exact h.2)]
  | dollar _ _ => simp at h
  | named _ _ _ _ => simp at h
  | braced _ _ _ => simp at h
  | lone _ _ _ _ _ => simp at h

/-- **C47 (no host).** Without Host header, or with an empty scheme, the stored WSDL is served as it is. -/
theorem C47_no_host (W : World) (d : DispId) (r : ReqId) (s : State) (q : Req)
    (hq : s.reqs[r]? = some q) (ha : AsksWsdl q) (h1 : (W.disp d).hooks.get? py"wsdl-request" = none)
    (h2 : (W.disp d).hooks.get? py"wsdl-response" = none)
    (hh : q.environ py"HTTP_HOST" = none ∨ q.environ py"HTTP_HOST" = some [] ∨ Scheme q.environ []) :
    dispatch W d r s = (.ok ⟨Val.none, .val (.atom (.str py"wsdl")), 200, [(py"Content-Type", py"text/xml")],
      .bytes (W.disp d).wsdl⟩, s) := by
  rw [C37_wsdl W d r s q hq ha]
  refine handleWsdl_plain hq h1 h2 ?_
  unfold wsdlFor
  simp only
  rw [if_neg]
  rintro ⟨h3, h4⟩
  obtain ⟨a, h5, h6⟩ := truthy_iff.1 h4
  rcases hh with h | h | h
  · rw [h] at h5; cases h5
  · rw [h] at h5; injection h5 with h5; exact h6 h5.symm
  · exact h3 (scheme_eq h)

/-- Both forms, an escaped dollar, an unknown name and a lone dollar. -/
example : safeSubstitute [(py"scheme", py"https"), (py"host", py"a.b")] py"${scheme}://$host/$$x $other ${ $" =
    py"https://a.b/$x $other ${ $" := by decide +kernel
example : Subst (schemeAndHost py"https" py"a.b") py"$host_:$" py"$host_:$" :=
  .named (n := py"host_") (s := py":$") ⟨_, _, rfl, .inr (.inr (by decide)), by
    intro x hx
    have : isIdChar x = true := by revert x; decide
    exact isIdChar_iff.1 this⟩
    (by intro c r h; injection h with h _; rw [← h]; unfold IdChar IdStart; decide)
    (.char (by decide) (.lone (by simp) (by simp) (by simp) .nil))
example : ∃ t, dispatch ExS.world 0 0 { reqs := [ExS.request py"GET" [] [(py"QUERY_STRING", py"wsdl"), (py"HTTP_HOST", py"h")]] } =
    (.ok ⟨Val.none, .val (.atom (.str py"wsdl")), 200, [(py"Content-Type", py"text/xml")], .bytes (ExS.world.encode t)⟩,
      { reqs := [ExS.request py"GET" [] [(py"QUERY_STRING", py"wsdl"), (py"HTTP_HOST", py"h")]] }) := by
  obtain ⟨t, _, h⟩ := C47_served ExS.world 0 0
    { reqs := [ExS.request py"GET" [] [(py"QUERY_STRING", py"wsdl"), (py"HTTP_HOST", py"h")]] } _ py"http" py"h" py"<>" rfl
    ⟨rfl, .inl ((mem_keys_parseQs _ _).1 (by decide +kernel))⟩ rfl rfl (.default rfl rfl) (by decide) rfl (by decide) rfl
  exact ⟨t, h⟩

/-! ### C48: schemas -/

theorem xsdLookup_some {xsds : List (Option Str × Bytes)} {name : Str} {b : Bytes}
    (h : First (fun p => p.1 = some name) xsds (some name, b)) : xsdLookup xsds name = some b := by
  obtain ⟨pre, post, rfl, _, hpre⟩ := h
  induction pre with
  | nil => simp [xsdLookup]
  | cons p pre ih =>
    obtain ⟨k, v⟩ := p
    have hk : k ≠ some name := hpre (k, v) (by simp)
    rw [List.cons_append, xsdLookup, if_neg hk]
    exact ih fun b hb => hpre b (by simp [hb])

theorem xsdLookup_none {xsds : List (Option Str × Bytes)} {name : Str} (h : ∀ p ∈ xsds, p.1 ≠ some name) :
    xsdLookup xsds name = none := by
  induction xsds with
  | nil => rfl
  | cons p xsds ih =>
    obtain ⟨k, v⟩ := p
    rw [xsdLookup, if_neg (h (k, v) (by simp))]
    exact ih fun b hb => h b (by simp [hb])

theorem handleXsd_plain {W : World} {d : DispId} {r : ReqId} {s : State} {q : Req}
    (hq : s.reqs[r]? = some q) (h1 : (W.disp d).hooks.get? py"xsd-request" = none)
    (h2 : (W.disp d).hooks.get? py"wsdl-response" = none) :
    handleXsd W d r s = (.ok (xsdAnswer (W.disp d) q.environ), s) := by
  unfold handleXsd
  simp only [M_bind, callRequestHook_none h1, M.pure_bind, callResponseHook_none h2]
  rw [M.bind_ok (getReq_some hq)]
  rfl

/-- The name of the schema a query asks for: the first value, where the empty one means `xsd`. -/
def AskedName (qs name : Str) : Prop :=
  ∃ v, FirstValue qs py"xsd" v ∧ ((v ≠ [] ∧ name = v) ∨ (v = [] ∧ name = py"xsd"))

theorem askedName_found {q : Req} {name : Str} (h : AskedName q.query name) :
    ∃ n vs, (parseQs ((q.environ py"QUERY_STRING").getD [])).get? py"xsd" = some (n :: vs) ∧
      (if n = [] then py"xsd" else n) = name := by
  obtain ⟨v, hv, hn⟩ := h
  obtain ⟨vs, hvs⟩ := (parseQs_first _ _ _).2 hv
  refine ⟨v, vs, hvs, ?_⟩
  rcases hn with ⟨h1, h2⟩ | ⟨h1, h2⟩
  · rw [if_neg h1, h2]
  · rw [if_pos h1, h2]

/-- **C48 (found).** The schema registered under the name is served. -/
theorem C48_found (W : World) (d : DispId) (r : ReqId) (s : State) (q : Req) (name : Str) (b : Bytes)
    (hq : s.reqs[r]? = some q) (ha : AsksXsd q) (h1 : (W.disp d).hooks.get? py"xsd-request" = none)
    (h2 : (W.disp d).hooks.get? py"wsdl-response" = none) (hn : AskedName q.query name)
    (hb : First (fun p => p.1 = some name) (W.disp d).xsds (some name, b)) :
    dispatch W d r s =
      (.ok ⟨Val.none, .val (.atom (.str py"xsd")), 200, [(py"Content-Type", py"text/xml")], .bytes b⟩, s) := by
  rw [C37_xsd W d r s q hq ha, handleXsd_plain hq h1 h2]
  obtain ⟨n, vs, h3, h4⟩ := askedName_found hn
  unfold xsdAnswer
  simp only [h3, h4, xsdLookup_some hb]
  rfl

/-- **C48 (not found).** Without such a schema the answer is 'not found' - with status 200. -/
theorem C48_not_found (W : World) (d : DispId) (r : ReqId) (s : State) (q : Req) (name : Str)
    (hq : s.reqs[r]? = some q) (ha : AsksXsd q) (h1 : (W.disp d).hooks.get? py"xsd-request" = none)
    (h2 : (W.disp d).hooks.get? py"wsdl-response" = none) (hn : AskedName q.query name)
    (hb : ∀ p ∈ (W.disp d).xsds, p.1 ≠ some name) :
    dispatch W d r s =
      (.ok ⟨Val.none, .val (.atom (.str py"not found")), 200, [(py"Content-Type", py"text/plain")], .str py"not_found"⟩, s) := by
  rw [C37_xsd W d r s q hq ha, handleXsd_plain hq h1 h2]
  obtain ⟨n, vs, h3, h4⟩ := askedName_found hn
  unfold xsdAnswer
  simp only [h3, h4, xsdLookup_none hb]
  rfl

/-- **C48 (always a name).** Every schema request asks for exactly one name. -/
theorem C48_name (q : Req) (ha : AsksXsd q) : ∃ name, AskedName q.query name ∧ ∀ n, AskedName q.query n → n = name := by
  have hget : ∃ v vs, (parseQs q.query).get? py"xsd" = some (v :: vs) := by
    obtain ⟨w, hw⟩ := (get_isSome_iff _ _).2 ((mem_keys_parseQs q.query py"xsd").2 ha.2.1)
    rw [parseQs_get] at hw ⊢
    cases hl : (parseQsl q.query).filter (fun p => p.1 = py"xsd") with
    | nil => rw [hl] at hw; cases hw
    | cons p l => exact ⟨p.2, l.map (·.2), rfl⟩
  obtain ⟨v, vs, hv⟩ := hget
  have h1 := (parseQs_first q.query py"xsd" v).1 ⟨vs, hv⟩
  have huniq : ∀ v', FirstValue q.query py"xsd" v' → v' = v := by
    intro v' h'
    obtain ⟨vs', hv'⟩ := (parseQs_first q.query py"xsd" v').2 h'
    rw [hv] at hv'
    injection hv' with hv'
    injection hv' with h1 _
    exact h1.symm
  by_cases he : v = []
  · refine ⟨py"xsd", ⟨v, h1, .inr ⟨he, rfl⟩⟩, ?_⟩
    rintro n ⟨v', h', hn⟩
    have := huniq v' h'
    subst this
    rcases hn with ⟨h3, _⟩ | ⟨_, h3⟩
    · exact absurd he h3
    · exact h3
  · refine ⟨v, ⟨v, h1, .inl ⟨he, rfl⟩⟩, ?_⟩
    rintro n ⟨v', h', hn⟩
    have := huniq v' h'
    subst this
    rcases hn with ⟨_, h3⟩ | ⟨h3, _⟩
    · exact h3
    · exact absurd h3 he

/-- Two schemas: one registered under the default name, and a query for it, for another and for an unknown one. -/
example : xsdLookup [(some py"xsd", [1]), (some py"common", [2])] py"common" = some [2] := by decide
example : First (fun p => p.1 = some py"common") [(some py"xsd", [1]), (some py"common", [2])] (some py"common", ([2] : Bytes)) :=
  ⟨[(some py"xsd", [1])], [], rfl, rfl, by simp⟩
example : AskedName py"xsd=&xsd=b" py"xsd" :=
  ⟨[], (parseQs_first _ _ _).1 ⟨[py"b"], by decide +kernel⟩, .inr ⟨rfl, rfl⟩⟩
example : AskedName py"a=1&xsd=b%20c" py"b c" :=
  ⟨py"b c", (parseQs_first _ _ _).1 ⟨[], by decide +kernel⟩, .inl ⟨by decide, rfl⟩⟩

end Soapfish
