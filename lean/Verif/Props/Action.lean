import Verif.Props.Served
import Verif.Client
/-
SOAP actions in HTTP headers (C50), environments (C55), versions (C60), names (C68) and client locations (C69).
-/
namespace Soapfish

/-! ### C50: SOAP actions -/

/-- **C50 (SOAP 1.1, reading).** The action of a request: the value of `SOAPACTION` or, if that is missing or empty, of
`ACTION`, without double quotes. -/
theorem C50_read11 (S : Service) (hS : S.version = .soap11) (env : Env) (a : Str) :
    HasAction S env a ↔ a ≠ [] ∧ ∃ v, v ≠ [] ∧ a = v.filter (· ≠ '"') ∧
      (env py"SOAPACTION" = some v ∨ ((env py"SOAPACTION" = none ∨ env py"SOAPACTION" = some []) ∧ env py"ACTION" = some v)) := by
  have hfil : ∀ v : Str, removeChar '"' v = v.filter (· ≠ '"') := by
    intro v
    unfold removeChar
    congr 1
    funext c
    simp [bne]
    rfl
  unfold HasAction
  rw [hS]
  unfold Version.determineAction
  simp only
  rcases h1 : env py"SOAPACTION" with _ | _ | ⟨c, cs⟩
  · rcases h2 : env py"ACTION" with _ | _ | ⟨d, ds⟩
    · simp [truthy]
    · simp [truthy]
    · simp only [truthy, Bool.false_eq_true, if_false, if_true, Option.map_some, Option.some.injEq, reduceCtorEq, false_or,
        true_or, true_and, hfil]
      exact ⟨fun ⟨h, h'⟩ => ⟨h', d :: ds, by simp, h.symm, rfl⟩, fun ⟨h', v, _, h, hv⟩ => ⟨by rw [h, hv], h'⟩⟩
  · rcases h2 : env py"ACTION" with _ | _ | ⟨d, ds⟩
    · simp [truthy]
    · simp [truthy]
    · simp only [truthy, Bool.false_eq_true, if_false, if_true, Option.map_some, Option.some.injEq, hfil]
      constructor
      · rintro ⟨h, h'⟩; exact ⟨h', d :: ds, by simp, h.symm, .inr ⟨by simp, rfl⟩⟩
      · rintro ⟨h', v, hv, h, h3 | ⟨_, h3⟩⟩
        · exact absurd h3.symm hv
        · exact ⟨by rw [h, h3], h'⟩
  · simp only [truthy, if_true, Option.map_some, Option.some.injEq, hfil, reduceCtorEq, false_and, or_false]
    exact ⟨fun ⟨h, h'⟩ => ⟨h', c :: cs, by simp, h.symm, rfl⟩, fun ⟨h', v, _, h, hv⟩ => ⟨by rw [h, hv], h'⟩⟩

theorem paramEnd_quoted (a : Str) (h1 : '"' ∉ a) (h2 : '\\' ∉ a) : paramEnd false true (a ++ ['"']) = (a ++ ['"'], []) := by
  induction a with
  | nil => rfl
  | cons c a ih =>
    have hc1 : c ≠ '"' := fun h => h1 (by simp [h])
    have hc2 : c ≠ '\\' := fun h => h2 (by simp [h])
    rw [List.cons_append, paramEnd]
    simp [hc1, hc2, ih (fun h => h1 (by simp [h])) (fun h => h2 (by simp [h]))]

theorem strip_ends {c d : Char} {s : Str} (hc : isSpace c = false) (hd : isSpace d = false) :
    strip (c :: (s ++ [d])) = c :: (s ++ [d]) := by
  unfold strip lstrip
  simp [hc, hd]

theorem replace2_none (t : Str) (b : Char) {s : Str} (h : '\\' ∉ s) : replace2 '\\' b t s = s := by
  induction s with
  | nil => rfl
  | cons c s ih =>
    have hc : c ≠ '\\' := fun e => h (by simp [e])
    have hs : '\\' ∉ s := fun e => h (by simp [e])
    cases s with
    | nil => rfl
    | cons d s =>
      rw [replace2]
      rw [if_neg (by simp [hc]), ih hs]

theorem parseParams_succ (n : Nat) (s : Str) :
    parseParams (n + 1) (';' :: s) = strip (paramEnd false false s).1 :: parseParams n (paramEnd false false s).2 := rfl

theorem parseParams_nil (n : Nat) : parseParams n [] = [] := by cases n <;> rfl

/-- Reading a content type with a quoted action. -/
theorem parseHeader_action (a : Str) (h1 : '"' ∉ a) (h2 : '\\' ∉ a) :
    parseHeader (py"application/soap+xml; action=\"" ++ a ++ py"\"") = (py"application/soap+xml", [(py"action", a)]) := by
  have e1 : paramEnd false false (py"application/soap+xml; action=\"" ++ a ++ py"\"") =
      (py"application/soap+xml", ';' :: (py" action=\"" ++ (a ++ ['"']))) := by
    rw [List.append_assoc]; rfl
  have e2 : paramEnd false false (py" action=\"" ++ (a ++ ['"'])) = (py" action=\"" ++ (a ++ ['"']), []) := by
    have : paramEnd false false (py" action=\"" ++ (a ++ ['"'])) =
        (py" action=\"" ++ (paramEnd false true (a ++ ['"'])).1, (paramEnd false true (a ++ ['"'])).2) := rfl
    rw [this, paramEnd_quoted a h1 h2]
  have e3 : strip (py" action=\"" ++ (a ++ ['"'])) = py"action=\"" ++ (a ++ ['"']) := by
    have : strip (py" action=\"" ++ (a ++ ['"'])) = strip ('a' :: ((py"ction=\"" ++ a) ++ ['"'])) := by
      rw [List.append_assoc]; rfl
    rw [this, strip_ends (by decide) (by decide)]
    rw [List.append_assoc]; rfl
  have e4 : partitionEq (py"action=\"" ++ (a ++ ['"'])) = (py"action", '"' :: (a ++ ['"'])) := rfl
  have e5 : unquoteParam ('"' :: (a ++ ['"'])) = a := by
    unfold unquoteParam
    rw [if_pos ⟨by rw [List.length_cons, List.length_append]; exact Nat.succ_le_succ (Nat.le_add_left 1 _), rfl,
      by rw [← List.cons_append, List.getLast?_append]; rfl⟩]
    have : ('"' :: (a ++ ['"'])).tail.dropLast = a := by simp
    rw [this, replace2_none _ _ h2, replace2_none _ _ h2]
  have e6 : addParam [] (py"action=\"" ++ (a ++ ['"'])) = [(py"action", a)] := by
    unfold addParam
    rw [if_pos (by simp [hasChar]), e4]
    simp only
    rw [strip_ends (by decide) (by decide), e5]
    rfl
  unfold parseHeader
  have hn : ∃ n, (py"application/soap+xml; action=\"" ++ a ++ py"\"").length = n + 1 := ⟨_, by
    rw [List.length_append, List.length_append]; rfl⟩
  obtain ⟨n, hn⟩ := hn
  rw [hn, parseParams_succ, e1, parseParams_succ, e2, parseParams_nil, e3]
  simp only [List.foldl_cons, List.foldl_nil, e6]
  rfl

/-- **C50 (SOAP 1.2).** The action a client puts into the content type is the one the server reads, for every action
without double quotes and backslashes. -/
theorem C50_soap12 (a : Str) (h1 : '"' ∉ a) (h2 : '\\' ∉ a) (env : Env)
    (he : env py"CONTENT_TYPE" = Dict.get? (Version.soap12.requestHeaders a) py"Content-Type") :
    Version.soap12.determineAction env = some a := by
  have : env py"CONTENT_TYPE" = some (py"application/soap+xml; action=\"" ++ a ++ py"\"") := by rw [he]; rfl
  unfold Version.determineAction
  simp only [this, Option.getD_some, parseHeader_action a h1 h2]
  rfl

/-- **C50 (SOAP 1.1).** The action a client puts into the `SOAPAction` header is the one the server reads, for every
action that is not empty and has no double quotes, if the server finds the header as `SOAPACTION`. -/
theorem C50_soap11 (a : Str) (h1 : '"' ∉ a) (h2 : a ≠ []) (env : Env)
    (he : env py"SOAPACTION" = Dict.get? (Version.soap11.requestHeaders a) py"SOAPAction") :
    Version.soap11.determineAction env = some a := by
  have he : env py"SOAPACTION" = some a := by rw [he]; rfl
  have hr : removeChar '"' a = a := by
    unfold removeChar
    rw [List.filter_eq_self]
    intro c hc
    simp only [bne_iff_ne, ne_eq]
    rintro rfl
    exact h1 hc
  unfold Version.determineAction
  simp only [he, truthy_iff.2 ⟨a, rfl, h2⟩, if_true, Option.map_some, hr]

/-- The variable in which a web server passes on an HTTP header (RFC 3875, PEP 3333). -/
def cgiVariable (header : Str) : Str :=
  let name := upper (header.map fun c => if c = '-' then '_' else c)
  if name = py"CONTENT_TYPE" then name else py"HTTP_" ++ name

/-- **C50 (Django).** The Django adapter finds the header a client sends in the variable of the web server... -/
theorem C50_django (a : Str) (h1 : '"' ∉ a) (h2 : a ≠ []) (d : Dict Str)
    (he : ∀ h v, (h, v) ∈ Version.soap11.requestHeaders a → d.get? (cgiVariable h) = some v)
    (hno : d.get? py"SOAPACTION" = none) : Version.soap11.determineAction (djangoEnv d) = some a := by
  apply C50_soap11 a h1 h2
  have := he py"SOAPAction" a (by simp [Version.requestHeaders])
  have e : cgiVariable py"SOAPAction" = py"HTTP_SOAPACTION" := by decide
  rw [e] at this
  have hn : djangoEnv d py"SOAPACTION" = match d.get? py"SOAPACTION" with
    | some v => some v
    | none => d.get? py"HTTP_SOAPACTION" := rfl
  rw [hn, hno]
  exact this

/-- ... but a plain WSGI environment does not have it under the name the library looks for: every variable that comes
from a header other than Content-Type and Content-Length begins with `HTTP_`, so the action of a SOAP 1.1 request is
never seen. -/
theorem C50_wsgi (d : Dict Str) (hno : ∀ k v, (k, v) ∈ d → k ≠ py"SOAPACTION" ∧ k ≠ py"ACTION") :
    Version.soap11.determineAction d.env = none := by
  have hget : ∀ (d : Dict Str) k, (∀ k' v, (k', v) ∈ d → k' ≠ k) → d.get? k = none := by
    intro d k h
    induction d with
    | nil => rfl
    | cons p d ih =>
      obtain ⟨k', v⟩ := p
      rw [Dict.get?, if_neg (h k' v (by simp))]
      exact ih fun k'' v'' hm => h k'' v'' (by simp [hm])
  have e1 : d.env py"SOAPACTION" = none := hget d _ fun k v h => (hno k v h).1
  have e2 : d.env py"ACTION" = none := hget d _ fun k v h => (hno k v h).2
  unfold Version.determineAction
  simp [e1, e2, truthy]

/-- No header becomes one of these variables. -/
theorem C50_no_variable (h : Str) : cgiVariable h ≠ py"SOAPACTION" ∧ cgiVariable h ≠ py"ACTION" := by
  unfold cgiVariable
  simp only
  split
  · next e => rw [e]; decide
  · constructor <;> (intro e; revert e; simp [List.cons_append])

/-- Actions with separators and spaces survive; two backslashes become one, and double quotes are lost. -/
example : Version.soap12.determineAction (Dict.env [(py"CONTENT_TYPE", py"application/soap+xml; action=\"urn:a;b = c\"")]) =
    some py"urn:a;b = c" := by decide +kernel
example : Version.soap12.determineAction (Dict.env [(py"CONTENT_TYPE", py"application/soap+xml; action=\"a\\\\b\"")]) =
    some py"a\\b" := by decide +kernel
example : Version.soap11.determineAction (Dict.env [(py"SOAPACTION", py"\"urn:a\"")]) = some py"urn:a" := by decide +kernel
example : Version.soap11.determineAction (djangoEnv [(py"HTTP_SOAPACTION", py"urn:a")]) = some py"urn:a" := by decide +kernel
example : Version.soap11.determineAction (Dict.env [(py"HTTP_SOAPACTION", py"urn:a")]) = none := by decide +kernel

/-! ### C55: the Django environment -/

/-- **C55.** A name is looked up in upper case with dashes replaced, then with `HTTP_` in front; otherwise there is no
value. -/
theorem C55_lookup (d : Dict Str) (name : Str) (v : Str) :
    djangoEnv d name = some v ↔
      ∃ key, key = (name.map fun c => if c = '-' then '_' else c).map upperC ∧
        (d.get? key = some v ∨ (d.get? key = none ∧ d.get? (py"HTTP_" ++ key) = some v)) := by
  unfold djangoEnv upper
  simp only [exists_eq_left]
  cases h : d.get? ((name.map fun c => if c = '-' then '_' else c).map upperC) with
  | none => simp
  | some w => simp

theorem upperC_ge (c : Char) (h : 0x61 ≤ (upperC c).toNat) (h2 : (upperC c).toNat ≤ 0x7a) : False := by
  unfold upperC at h h2
  split at h
  · next hc =>
    rw [if_pos hc] at h2
    have : ∀ n : Nat, 0x61 ≤ n → n ≤ 0x7a → (Char.ofNat (n - 32)).toNat < 0x61 := by
      intro n h1 h2
      have : ∀ m : Fin 26, (Char.ofNat (m.val + 0x61 - 32)).toNat < 0x61 := by decide
      have := this ⟨n - 0x61, by omega⟩
      have e : n - 0x61 + 0x61 = n := by omega
      simpa [e] using this
    have := this _ hc.1 hc.2
    omega
  · next hc =>
    rw [if_neg hc] at h2
    exact hc ⟨h, h2⟩

/-- **C55 (consequence).** A variable whose name contains a lower-case letter, such as `wsgi.url_scheme`, is never
found: the result does not depend on its value. -/
theorem C55_lower_case (d : Dict Str) (k v name : Str) (c : Char) (hc : c ∈ k) (hlow : 0x61 ≤ c.toNat ∧ c.toNat ≤ 0x7a) :
    djangoEnv ((k, v) :: d) name = djangoEnv d name := by
  have hne : ∀ s : Str, (∀ x ∈ s, ¬ (0x61 ≤ x.toNat ∧ x.toNat ≤ 0x7a)) → k ≠ s := by
    rintro s hs rfl
    exact hs c hc hlow
  have hup : ∀ x ∈ upper (name.map fun c => if c = '-' then '_' else c), ¬ (0x61 ≤ x.toNat ∧ x.toNat ≤ 0x7a) := by
    intro x hx
    unfold upper at hx
    obtain ⟨y, _, rfl⟩ := List.mem_map.1 hx
    exact fun h => upperC_ge y h.1 h.2
  have h1 := hne _ hup
  have h2 := hne (py"HTTP_" ++ upper (name.map fun c => if c = '-' then '_' else c)) (by
    intro x hx
    rcases List.mem_append.1 hx with hx | hx
    · clear h1 hne
      have : ∀ x ∈ py"HTTP_", ¬ (0x61 ≤ x.toNat ∧ x.toNat ≤ 0x7a) := by decide
      exact this x hx
    · exact hup x hx)
  unfold djangoEnv
  simp only [Dict.get?, if_neg h1, if_neg h2]

example : djangoEnv [(py"HTTP_X_FORWARDED_PROTO", py"https"), (py"wsgi.url_scheme", py"http")] py"X-Forwarded-Proto" =
    some py"https" := by decide +kernel
example : djangoEnv [(py"wsgi.url_scheme", py"https")] py"wsgi.url_scheme" = none := by decide +kernel

/-! ### C60: versions -/

/-- **C60.** -/
theorem C60_version (ns : Str) (v : Version) :
    getVersion ns = .ok v ↔ ns = v.envelopeNs ∨ ns = v.bindingNs := by
  unfold getVersion
  constructor
  · intro h
    split at h
    · injection h with h; subst h; assumption
    · split at h
      · injection h with h; subst h; assumption
      · cases h
  · intro h
    cases v with
    | soap11 => rw [if_pos h]
    | soap12 =>
      rw [if_neg, if_pos h]
      rintro (rfl | rfl) <;> rcases h with h | h <;> revert h <;> decide

/-- **C60 (others).** -/
theorem C60_other (ns : Str) (h : ∀ v : Version, ns ≠ v.envelopeNs ∧ ns ≠ v.bindingNs) :
    getVersion ns = .error .valueError := by
  unfold getVersion
  rw [if_neg, if_neg]
  · rintro (h' | h')
    · exact (h .soap12).1 h'
    · exact (h .soap12).2 h'
  · rintro (h' | h')
    · exact (h .soap11).1 h'
    · exact (h .soap11).2 h'

/-- The namespaces. -/
example : Version.soap11.envelopeNs = py"http://schemas.xmlsoap.org/soap/envelope/" ∧
    Version.soap11.bindingNs = py"http://schemas.xmlsoap.org/wsdl/soap/" ∧
    Version.soap12.envelopeNs = py"http://www.w3.org/2003/05/soap-envelope" ∧
    Version.soap12.bindingNs = py"http://schemas.xmlsoap.org/wsdl/soap12/" := ⟨rfl, rfl, rfl, rfl⟩
example : getVersion py"http://www.w3.org/2003/05/soap-envelope" = .ok .soap12 := by decide
example : getVersion py"http://www.w3.org/2003/05/soap-envelope/" = .error .valueError := by decide

/-! ### C69: the location of a stub -/

/-- **C69.** Without location the service's one with scheme and host filled in. -/
theorem C69_default (template scheme host l : Str) :
    stubLocation template scheme host .none = .ok l ↔ Subst (schemeAndHost scheme host) template l := by
  have hval : Dict.get? [(py"scheme", scheme), (py"host", host)] = schemeAndHost scheme host := by
    funext n
    simp only [Dict.get?, schemeAndHost, eq_comm (b := n)]
  rw [← hval, ← safeSubstitute_iff]
  unfold stubLocation
  simp

/-- **C69 (given).** A text is used as it is, a callable decides, anything else is a TypeError. -/
theorem C69_given (template scheme host : Str) :
    (∀ s, stubLocation template scheme host (.str s) = .ok s) ∧
    (∀ f, stubLocation template scheme host (.callable f) = f template [(py"scheme", scheme), (py"host", host)]) ∧
    stubLocation template scheme host .other = .error .typeError := ⟨fun _ => rfl, fun _ => rfl, rfl⟩

example : stubLocation py"${scheme}://$host/ws" py"http" py"www.example.net" .none = .ok py"http://www.example.net/ws" := by
  decide +kernel

end Soapfish
