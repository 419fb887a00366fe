import Verif.Spec.Dispatch
import Verif.Props.Parse
/-
Lemmas about computations, user programs and the preparation of requests.
-/
namespace Soapfish

/-! ### Computations -/

theorem M_bind {α β} (x : M α) (f : α → M β) : (x >>= f) = M.bind x f := rfl
theorem M_pure {α} (a : α) : (pure a : M α) = M.pure a := rfl

theorem M.pure_bind {α β} (a : α) (f : α → M β) : M.bind (M.pure a) f = f a := rfl

theorem M.bind_pure {α} (m : M α) : M.bind m M.pure = m := by
  funext s
  unfold M.bind
  rcases h : m s with ⟨o, s'⟩
  cases o <;> rfl

theorem M.bind_assoc {α β γ} (m : M α) (f : α → M β) (g : β → M γ) :
    M.bind (M.bind m f) g = M.bind m fun a => M.bind (f a) g := by
  funext s
  unfold M.bind
  rcases h : m s with ⟨o, s'⟩
  cases o <;> rfl

/-- A computation only appends events with a property. -/
def Emits {α} (P : Event → Prop) (m : M α) : Prop :=
  ∀ s, ∃ evs, (m s).2.trace = s.trace ++ evs ∧ ∀ e ∈ evs, P e

theorem Emits.pure {α} {P : Event → Prop} (a : α) : Emits P (M.pure a) := fun s => ⟨[], by simp [M.pure], by simp⟩
theorem Emits.throw {α} {P : Event → Prop} (e : Exn) : Emits P (M.throw e : M α) :=
  fun s => ⟨[], by simp [M.throw], by simp⟩
theorem Emits.lift {α} {P : Event → Prop} (x : Except Exn α) : Emits P (M.lift x) :=
  fun s => ⟨[], by simp [M.lift], by simp⟩
theorem Emits.getReq {P : Event → Prop} (r : ReqId) : Emits P (getReq r) := by
  intro s
  refine ⟨[], ?_, by simp⟩
  unfold Soapfish.getReq
  split <;> simp
theorem Emits.setReq {P : Event → Prop} (r : ReqId) (q : Req) : Emits P (setReq r q) :=
  fun s => ⟨[], by simp [Soapfish.setReq], by simp⟩
theorem Emits.newReq {P : Event → Prop} (q : Req) : Emits P (newReq q) :=
  fun s => ⟨[], by simp [Soapfish.newReq], by simp⟩
theorem Emits.emit {P : Event → Prop} {e : Event} (h : P e) : Emits P (emit e) :=
  fun s => ⟨[e], by simp [Soapfish.emit], by simpa using h⟩

theorem Emits.bind {α β} {P : Event → Prop} {m : M α} {f : α → M β} (hm : Emits P m) (hf : ∀ a, Emits P (f a)) :
    Emits P (M.bind m f) := by
  intro s
  obtain ⟨es, h1, h2⟩ := hm s
  unfold M.bind
  rcases h : m s with ⟨o, s'⟩
  rw [h] at h1
  cases o with
  | error e => exact ⟨es, h1, h2⟩
  | ok a =>
    obtain ⟨es', h3, h4⟩ := hf a s'
    refine ⟨es ++ es', ?_, ?_⟩
    · rw [h3, h1, List.append_assoc]
    · intro e he
      rcases List.mem_append.1 he with he | he
      · exact h2 e he
      · exact h4 e he

theorem Emits.outcome {α} {P : Event → Prop} {m : M α} (h : Emits P m) : Emits P (M.outcome m) := by
  intro s
  obtain ⟨es, h1, h2⟩ := h s
  exact ⟨es, h1, h2⟩

theorem Emits.mono {α} {P Q : Event → Prop} {m : M α} (h : Emits P m) (hpq : ∀ e, P e → Q e) : Emits Q m := by
  intro s
  obtain ⟨es, h1, h2⟩ := h s
  exact ⟨es, h1, fun e he => hpq e (h2 e he)⟩

theorem Emits.happened {α} {P : Event → Prop} {m : M α} (h : Emits P m) (s : State) : ∀ e ∈ happened m s, P e := by
  obtain ⟨es, h1, h2⟩ := h s
  intro e he
  unfold Soapfish.happened at he
  rw [h1, List.drop_left] at he
  exact h2 e he

/-- User code emits nothing but log entries, apart from what `next` does. -/
theorem Emits.run {ν α : Type} {P : Event → Prop} {nx : ν → ReqId → M Ret} (hlog : ∀ e, P (.log e))
    (hnx : ∀ t r, Emits P (nx t r)) (p : Prog ν α) : Emits P (p.run nx) := by
  induction p with
  | ret a => exact .pure a
  | raise e => exact .throw e
  | get r k ih => exact .bind (.getReq r) fun q => ih q
  | set r q k ih => exact .bind (.setReq r q) fun _ => ih
  | new q k ih => exact .bind (.newReq q) fun r => ih r
  | log e k ih => exact .bind (.emit (hlog e)) fun _ => ih
  | next t r k ih => exact .bind (.outcome (hnx t r)) fun o => ih o

theorem Emits.run' {α : Type} {P : Event → Prop} (hlog : ∀ e, P (.log e)) (p : Prog Empty α) : Emits P p.run' :=
  Emits.run hlog (fun t _ => nomatch t) p

/-! ### The first with a property -/

theorem find?_first {α : Type} {p : α → Bool} {l : List α} {a : α} (h : l.find? p = some a) :
    First (fun a => p a = true) l a := by
  obtain ⟨h1, pre, post, h2, h3⟩ := List.find?_eq_some_iff_append.1 h
  exact ⟨pre, post, h2, h1, fun b hb => by simpa using h3 b hb⟩

theorem First.unique {α : Type} {p : α → Prop} {l : List α} {a b : α} (ha : First p l a) (hb : First p l b) : a = b := by
  obtain ⟨p1, q1, e1, h1, n1⟩ := ha
  obtain ⟨p2, q2, e2, h2, n2⟩ := hb
  rw [e1] at e2
  rcases List.append_eq_append_iff.1 e2 with ⟨c, hc, hd⟩ | ⟨c, hc, hd⟩
  · cases c with
    | nil => simp at hd; exact hd.1
    | cons y ys =>
      rw [List.cons_append] at hd
      injection hd with hy _
      subst hy
      exact absurd h1 (n2 a (by rw [hc]; simp))
  · cases c with
    | nil => simp at hd; exact hd.1.symm
    | cons y ys =>
      rw [List.cons_append] at hd
      injection hd with hy _
      subst hy
      exact absurd h2 (n1 b (by rw [hc]; simp))

/-! ### Splitting at a character -/

theorem lastPart_after (g : Str) : AfterColon g (lastPart ':' g) := by
  have key : ∀ g : Str, splitOn ':' g ≠ [] ∧ (∀ w ∈ splitOn ':' g, ':' ∉ w) := by
    intro g
    induction g with
    | nil => simp [splitOn]
    | cons c cs ih =>
      unfold splitOn
      by_cases hc : c = ':'
      · rw [if_pos hc]
        refine ⟨by simp, ?_⟩
        intro w hw
        rcases List.mem_cons.1 hw with rfl | hw
        · simp
        · exact ih.2 w hw
      · rw [if_neg hc]
        split
        · next w ws e =>
          refine ⟨by simp, ?_⟩
          rw [e] at ih
          intro w' hw
          rcases List.mem_cons.1 hw with rfl | hw
          · have := ih.2 w (by simp)
            simp only [List.mem_cons, not_or]
            exact ⟨fun h => hc h.symm, this⟩
          · exact ih.2 w' (by simp [hw])
        · next e => exact absurd e ih.1
  have tail : ∀ g : Str, g = lastPart ':' g ∨ ∃ p, g = p ++ ':' :: lastPart ':' g := by
    intro g
    induction g with
    | nil => left; rfl
    | cons c cs ih =>
      unfold lastPart at ih ⊢
      unfold splitOn
      have hne := (key cs).1
      by_cases hc : c = ':'
      · rw [if_pos hc]
        right
        rw [List.getLastD_cons]
        cases e : splitOn ':' cs with
        | nil => exact absurd e hne
        | cons w ws =>
          have e2 : (w :: ws).getLastD [] = (splitOn ':' cs).getLastD [] := by rw [e]
          rw [e2]
          rcases ih with ih | ⟨p, ih⟩
          · exact ⟨[], by rw [hc, List.nil_append]; congr 1⟩
          · exact ⟨c :: p, by rw [List.cons_append]; congr 1⟩
      · rw [if_neg hc]
        split
        · next w ws e =>
          rw [e] at ih
          cases ws with
          | nil =>
            simp only [List.getLastD_cons, List.getLastD_nil] at ih ⊢
            rcases ih with ih | ⟨p, ih⟩
            · left; rw [← ih]
            · have := (key cs).2 w (by rw [e]; simp)
              have h2 : cs = w := by
                have := congrArg (fun l => (l.map (fun x => x)).length) e
                have hlen : ∀ g : Str, ∀ w, splitOn ':' g = [w] → g = w := by
                  intro g
                  induction g with
                  | nil => intro w h; simp [splitOn] at h; exact h.symm
                  | cons c cs ih =>
                    intro w h
                    unfold splitOn at h
                    by_cases hc : c = ':'
                    · rw [if_pos hc] at h
                      injection h with _ h
                      exact absurd h (key cs).1
                    · rw [if_neg hc] at h
                      split at h
                      · next w' ws' e' =>
                        injection h with h1 h2
                        subst h2
                        rw [← h1, ih w' e']
                      · next e' => exact absurd e' (key cs).1
                exact hlen cs w e
              left; rw [h2]
          | cons w2 ws =>
            simp only [List.getLastD_cons] at ih ⊢
            rcases ih with ih | ⟨p, ih⟩
            · exfalso
              have h1 : ':' ∈ cs := by
                have hmem : ∀ g : Str, ∀ a b l, splitOn ':' g = a :: b :: l → ':' ∈ g := by
                  intro g
                  induction g with
                  | nil => intro a b l h; simp [splitOn] at h
                  | cons c cs ih =>
                    intro a b l h
                    unfold splitOn at h
                    by_cases hc : c = ':'
                    · simp [hc]
                    · rw [if_neg hc] at h
                      split at h
                      · next w' ws' e' =>
                        injection h with h1 h2
                        subst h2
                        exact List.mem_cons_of_mem _ (ih _ _ _ e')
                      · next e' => exact absurd e' (key cs).1
                exact hmem cs _ _ _ e
              have h2 := (key cs).2 (ws.getLastD w2) (by
                rw [e]
                cases ws with
                | nil => simp
                | cons a b => simp [List.getLastD_eq_getLast?, List.getLast?_eq_some_getLast])
              rw [← ih] at h2
              exact h2 h1
            · exact .inr ⟨c :: p, by rw [List.cons_append, ← ih]⟩
        · next e => exact absurd e hne
  refine ⟨?_, tail g⟩
  unfold lastPart
  have := key g
  cases e : splitOn ':' g with
  | nil => exact absurd e this.1
  | cons w ws =>
    apply this.2
    rw [e]
    rw [List.getLastD_eq_getLast?, List.getLast?_eq_some_getLast (by simp)]
    exact List.getLast_mem _

/-! ### Reading an envelope -/

theorem soap_names (v : Version) (U : Table) (c : ClsId) (hc : c < 8) : NamesNodup (soapTable v U c) := by
  have : c = 0 ∨ c = 1 ∨ c = 2 ∨ c = 3 ∨ c = 4 ∨ c = 5 ∨ c = 6 ∨ c = 7 := by
    have : c < 8 := hc
    revert c; decide
  rcases this with rfl | rfl | rfl | rfl | rfl | rfl | rfl | rfl <;> cases v <;>
    simp [soapTable, NamesNodup, Version.faultFields]

theorem soap_choice (v : Version) (U : Table) (c : ClsId) (hc : c < 8) : (soapTable v U c).choice = false := by
  have : c = 0 ∨ c = 1 ∨ c = 2 ∨ c = 3 ∨ c = 4 ∨ c = 5 ∨ c = 6 ∨ c = 7 := by
    have : c < 8 := hc
    revert c; decide
  rcases this with rfl | rfl | rfl | rfl | rfl | rfl | rfl | rfl <;> rfl

theorem claims_named {f : Field} (htag : f.tagname = none) (u : Xml) : f.Claims u ↔ u.Named f.name := by
  constructor
  · rintro ⟨q, a, t, k, rfl, h⟩
    rw [htag] at h
    exact ⟨q, a, t, k, rfl, h.resolve_right (by simp)⟩
  · rintro ⟨q, a, t, k, rfl, h⟩
    exact ⟨q, a, t, k, rfl, .inl h⟩

/-- The parsed value of a single element field, for a class that is not a Choice. -/
theorem parse_single {T : Table} {N n : Nat} {c : ClsId} {x : Xml} {v : Val} (hn : NamesNodup (T c))
    (hch : (T c).choice = false) (h : parseCls T N (n + 1) c x = .ok v) {f : Field} (hf : f ∈ (T c).fields)
    (hk : f.kind = .element ∨ f.kind = .classNamed) (htag : f.tagname = none) :
    ∃ w, v.getA f.name = .ok w ∧
      ((∃ u, LastChild x f.name u ∧ ReadAs T N n f u w) ∨ ((∀ u ∈ x.kids, ¬ u.Named f.name) ∧ EmptyValue T f w)) := by
  obtain ⟨es, fs, hes, rfl, _, hall⟩ := (parseCls_ok_iff hn hch).1 h
  obtain ⟨e, w, he, hw, hg⟩ := hall f hf
  have hl : f.kind ≠ .list := by rcases hk with h | h <;> simp [h]
  refine ⟨w, by simp [Val.getA, getAttr, hg], ?_⟩
  obtain ⟨subs, hs, hw⟩ := fieldVal_single (by rcases hk with h | h <;> simp [h]) hw
  have hcl := claims_named htag
  have hfil := findSub_filter hs
  rcases List.eq_nil_or_concat subs with rfl | ⟨us, u, rfl⟩
  · right
    injection hw with hw; subst hw
    obtain ⟨w, h1, h2⟩ := newInst_empty hn hes hf (by rcases hk with h | h <;> simp [h])
    rw [h1] at he; injection he with he; subst he
    refine ⟨fun u hu hnm => ?_, h2⟩
    have : u ∈ x.kids.filter f.claims := List.mem_filter.2 ⟨hu, claims_bool.2 ((hcl u).2 hnm)⟩
    rw [← hfil] at this
    cases this
  · left
    rw [List.concat_eq_append] at hw hfil
    refine ⟨u, ?_, foldE_last hl hw⟩
    obtain ⟨pre, post, h1, h2, h3⟩ := List.filter_eq_append_iff.1 hfil.symm
    obtain ⟨p1, p2, h4, h5, h6, h7⟩ := List.filter_eq_cons_iff.1 h3
    refine ⟨pre ++ p1, p2, by rw [h1, h4]; simp, (hcl u).1 (claims_bool.1 h6), ?_⟩
    intro y hy hcy
    have : y ∈ p2.filter f.claims := List.mem_filter.2 ⟨hy, claims_bool.2 ((hcl y).2 hcy)⟩
    rw [h7] at this
    cases this

theorem LastChild.unique {doc : Xml} {name : Str} {x y : Xml} (hx : LastChild doc name x) (hy : LastChild doc name y) :
    x = y := by
  obtain ⟨p1, q1, e1, h1, n1⟩ := hx
  obtain ⟨p2, q2, e2, h2, n2⟩ := hy
  rw [e1] at e2
  rcases List.append_eq_append_iff.1 e2 with ⟨c, hc, hd⟩ | ⟨c, hc, hd⟩
  · cases c with
    | nil => simp at hd; exact hd.1
    | cons z zs =>
      rw [List.cons_append] at hd
      injection hd with _ hd
      exact absurd h2 (n1 y (by rw [hd]; simp))
  · cases c with
    | nil => simp at hd; exact hd.1.symm
    | cons z zs =>
      rw [List.cons_append] at hd
      injection hd with _ hd
      exact absurd h1 (n2 x (by rw [hd]; simp))

/-- What a successfully read envelope holds as Body, if it is used as one. -/
theorem envelope_body {v : Version} {U : Table} {D : Nat} {x : Xml} {env body : Val} {k : Xml}
    (h : parseEnvelope (soapTable v U) D x = .ok env) (hb : env.getA py"Body" = .ok body)
    (hk : bodyContent body = .ok k) : ∃ b, LastChild x py"Body" b ∧ b.kids.head? = some k := by
  unfold parseEnvelope at h
  cases D with
  | zero => cases h
  | succ D =>
    obtain ⟨w, hw, hr⟩ := parse_single (f := { name := py"Body", kind := .element, type := .complex cBody })
      (soap_names v U 5 (by decide)) (soap_choice v U 5 (by decide)) h (by simp [soapTable]) (.inl rfl) rfl
    rw [hb] at hw
    injection hw with hw; subst hw
    rcases hr with ⟨u, hu, hr⟩ | ⟨_, he⟩
    · refine ⟨u, hu, ?_⟩
      cases hr with
      | nil => cases hk
      | simple _ ht => cases ht
      | complex _ ht hp =>
        cases D with
        | zero => cases hp
        | succ D =>
          injection ht with ht; subst ht
          obtain ⟨es, fs, _, rfl, _, _⟩ :=
            (parseCls_ok_iff (soap_names v U 3 (by decide)) (soap_choice v U 3 (by decide))).1 hp
          simp only [bodyContent, Val.element, bind_eq_ok] at hk
          obtain ⟨x', hx', hk⟩ := hk
          injection hx' with hx'; subst hx'
          split at hk
          · next e => injection hk with hk; subst hk; rw [e]; rfl
          · cases hk
    · exfalso
      have he : Except.ok Val.none = Except.ok (ε := Exn) body := he
      injection he with he; subst he
      cases hk

/-- What a successfully read envelope holds as Header: something only if there is a Header element. -/
theorem envelope_header {v : Version} {U : Table} {D : Nat} {x : Xml} {env header : Val}
    (h : parseEnvelope (soapTable v U) D x = .ok env) (hb : env.getA py"Header" = .ok header) :
    (∃ u, LastChild x py"Header" u ∧ (header = .nil ∨ ∃ fs, header = .inst cHeader fs (some u))) ∨
    (header = Val.none ∧ ∀ u ∈ x.kids, ¬ u.Named py"Header") := by
  unfold parseEnvelope at h
  cases D with
  | zero => cases h
  | succ D =>
    obtain ⟨w, hw, hr⟩ := parse_single
      (f := { name := py"Header", kind := .element, type := .complex cHeader, nillable := true })
      (soap_names v U 5 (by decide)) (soap_choice v U 5 (by decide)) h (by simp [soapTable]) (.inl rfl) rfl
    rw [hb] at hw
    injection hw with hw; subst hw
    rcases hr with ⟨u, hu, hr⟩ | ⟨hno, he⟩
    · refine .inl ⟨u, hu, ?_⟩
      cases hr with
      | nil => exact .inl rfl
      | simple _ ht => cases ht
      | complex _ ht hp =>
        cases D with
        | zero => cases hp
        | succ D =>
          injection ht with ht; subst ht
          obtain ⟨es, fs, _, rfl, _, _⟩ :=
            (parseCls_ok_iff (soap_names v U 2 (by decide)) (soap_choice v U 2 (by decide))).1 hp
          exact .inr ⟨fs, rfl⟩
    · refine .inr ⟨?_, hno⟩
      have he : Except.ok Val.none = Except.ok (ε := Exn) header := he
      injection he with he; exact he.symm

theorem eachE_ok {α} {f : α → Except Exn Unit} {l : List α} (h : eachE f l = .ok ()) : ∀ a ∈ l, f a = .ok () := by
  induction l with
  | nil => simp
  | cons a as ih =>
    simp only [eachE, bind_eq_ok] at h
    obtain ⟨_, h1, h2⟩ := h
    intro b hb
    rcases List.mem_cons.1 hb with rfl | hb
    · exact h1
    · exact ih h2 b hb

theorem isInvalid_iff {e : Exn} : e.isInvalid = true ↔ Invalid e := by
  cases e <;> simp [Exn.isInvalid, Invalid]

theorem headerChild_iff {W : World} {d : Dispatcher} {x : Xml} :
    validateHeaderChild W d x = .ok () ↔ HeaderOk W d x := by
  cases x with
  | elem q a t k =>
    have key : HeaderOk W d (.elem q a t k) ↔ (q.ns = some nsWsa → W.wsaValid (.elem q a t k) = .ok ()) ∧
        (q.ns ≠ some nsWsa → d.validator (.elem q a t k) = .ok () ∨
          (d.strict = false ∧ ∃ e, Invalid e ∧ d.validator (.elem q a t k) = .error e)) := by
      constructor
      · rintro ⟨q', a', t', k', h, h2⟩
        injection h with h; subst h
        exact h2
      · intro h; exact ⟨q, a, t, k, rfl, h⟩
    rw [key]
    by_cases hq : q.ns = some nsWsa
    · simp [validateHeaderChild, hq]
    · have h1 : validateHeaderChild W d (.elem q a t k) = unlessStrict d.strict (d.validator (.elem q a t k)) := by
        simp only [validateHeaderChild, if_neg hq]
      have h2 : ∀ r, unlessStrict d.strict r = .ok () ↔
          r = .ok () ∨ (d.strict = false ∧ ∃ e, Invalid e ∧ r = .error e) := by
        intro r
        cases r with
        | ok u => simp [unlessStrict]
        | error e =>
          unfold unlessStrict
          by_cases h : e.isInvalid = true ∧ d.strict = false
          · simp only [if_pos h, true_iff]
            exact .inr ⟨h.2, e, isInvalid_iff.1 h.1, rfl⟩
          · simp only [if_neg h, reduceCtorEq, false_or, false_iff]
            rintro ⟨h1, e', h2, h3⟩
            injection h3 with h3; subst h3
            exact h ⟨isInvalid_iff.2 h2, h1⟩
      rw [h1, h2]
      exact ⟨fun h => ⟨fun e => absurd e hq, fun _ => h⟩, fun h => h.2 hq⟩
  | comment =>
    simp only [validateHeaderChild, reduceCtorEq, false_iff]
    rintro ⟨_, _, _, _, h, _⟩; cases h
  | pi =>
    simp only [validateHeaderChild, reduceCtorEq, false_iff]
    rintro ⟨_, _, _, _, h, _⟩; cases h

theorem headerChild_ok {W : World} {d : Dispatcher} {x : Xml} (h : validateHeaderChild W d x = .ok ()) :
    HeaderOk W d x := headerChild_iff.1 h

theorem asClientFault_ok {W : World} {v : Version} {r : Except Exn Unit} {u : Unit} (h : asClientFault W v r = .ok u) :
    r = .ok () := by
  unfold asClientFault at h
  split at h
  · rfl
  · split at h <;> cases h

/-- What passed reading and validation is checked. -/
theorem readAndValidate_checked {W : World} {d : Dispatcher} {content : Bytes} {header : Val} {x : Xml}
    (h : readAndValidate W d content = .ok (header, x)) : Checked W d content x := by
  simp only [readAndValidate, bind_eq_ok] at h
  obtain ⟨env, henv, header', hh, body, hb, x', hx, u, hv, h⟩ := h
  injection h with h; injection h with h1 h2; subst h1; subst h2
  have hv := asClientFault_ok hv
  simp only [validateInput, bind_eq_ok] at hv
  obtain ⟨header2, hh2, u2, hvh, body2, hb2, x2, hx2, hv⟩ := hv
  rw [hh] at hh2; injection hh2 with hh2; subst hh2
  rw [hb] at hb2; injection hb2 with hb2; subst hb2
  rw [hx] at hx2; injection hx2 with hx2; subst hx2
  unfold parseSoapContent at henv
  split at henv
  · cases henv
  next doc hdoc =>
  simp only [bind_eq_ok] at henv
  obtain ⟨env', he1, body', hb', he2⟩ := henv
  split at he2
  · cases he2
  injection he2 with he2; subst he2
  obtain ⟨b, hbl, hbk⟩ := envelope_body he1 hb hx
  refine ⟨doc, b, hdoc, hbl, hbk, ?_, ?_, ?_⟩
  · cases x' with
    | elem q a t k => exact ⟨q.loc, q, a, t, k, rfl, rfl⟩
    | comment => cases hv
    | pi => cases hv
  · cases x' with
    | elem q a t k => exact hv
    | comment => cases hv
    | pi => cases hv
  · intro hx' hl y hy
    rcases envelope_header he1 hh with ⟨w, hw, rfl | ⟨fs, rfl⟩⟩ | ⟨rfl, hno⟩
    · cases hvh
    · have := LastChild.unique hl hw
      subst this
      exact headerChild_ok (eachE_ok hvh y hy)
    · obtain ⟨pre, post, e, hn, _⟩ := hl
      exact absurd hn (hno hx' (by rw [e]; simp))

/-! ### Choosing a method -/

theorem truthy_iff {o : Option Str} : truthy o = true ↔ ∃ a, o = some a ∧ a ≠ [] := by
  cases o with
  | none => simp [truthy]
  | some s => cases s <;> simp [truthy]

theorem First.congr {α : Type} {p q : α → Prop} {l : List α} {a : α} (h : ∀ a, p a ↔ q a) (hf : First p l a) :
    First q l a := by
  obtain ⟨pre, post, e, h1, h2⟩ := hf
  exact ⟨pre, post, e, (h a).1 h1, fun b hb hq => h2 b hb ((h b).2 hq)⟩

theorem byInput_some {W : World} {S : Service} {n : Str} {m : MethodId} (h : byInput W S n = some m) :
    First (fun m => (W.method m).input = .name n) S.methods m :=
  (find?_first h).congr (fun a => by simp)

theorem byInput_none {W : World} {S : Service} {n : Str} (h : byInput W S n = none) :
    ∀ m ∈ S.methods, (W.method m).input ≠ .name n := by
  intro m hm
  have := List.find?_eq_none.1 h m hm
  simpa using this

theorem findSome_first {α β : Type} {f : α → Option β} {l : List α} {b : β} (h : l.findSome? f = some b) :
    ∃ a, First (fun a => ∃ b, f a = some b) l a ∧ f a = some b := by
  obtain ⟨pre, a, post, h1, h2, h3⟩ := List.findSome?_eq_some_iff.1 h
  refine ⟨a, ⟨pre, post, h1, ⟨b, h2⟩, ?_⟩, h2⟩
  rintro c hc ⟨b', hb'⟩
  rw [h3 c hc] at hb'
  cases hb'

theorem findHandler_handles {W : World} {S : Service} {env : Env} {x : Xml} {m : MethodId}
    (h : findHandler W S env x = .ok m) : ∃ root, x.Named root ∧ Handles W S env root m := by
  simp only [findHandler, bind_eq_ok] at h
  obtain ⟨root, hr, h⟩ := h
  have hroot : x.Named root := by
    cases x with
    | elem q a t k => injection hr with hr; exact ⟨q, a, t, k, rfl, hr⟩
    | comment => cases hr
    | pi => cases hr
  refine ⟨root, hroot, ?_⟩
  by_cases ht : truthy (S.version.determineAction env) = true
  · rw [if_pos ht] at h
    obtain ⟨a, ha, hne⟩ := truthy_iff.1 ht
    cases hf : S.methods.find? (fun m => some (W.method m).soapAction = S.version.determineAction env) with
    | none => rw [hf] at h; cases h
    | some m' =>
      rw [hf] at h
      injection h with h; subst h
      refine .action ⟨ha, hne⟩ ((find?_first hf).congr (fun a' => ?_))
      rw [ha]; simp
  · rw [if_neg ht] at h
    have hno : ∀ a, ¬ HasAction S env a := fun a ha => ht (truthy_iff.2 ⟨a, ha.1, ha.2⟩)
    split at h
    · next m' hm =>
      injection h with h; subst h
      exact .input hno (byInput_some hm)
    · next hm =>
      split at h
      · next e he =>
        obtain ⟨s, hs1, hs2⟩ := findSome_first he
        unfold bySubstitution at h
        split at h
        · cases h
        · cases h
        · next g _ hg =>
          cases hb : byInput W S (lastPart ':' g) with
          | none => rw [hb] at h; cases h
          | some m' =>
            rw [hb] at h
            injection h with h; subst h
            exact .substitution hno (byInput_none hm) hs1 hs2 hg (lastPart_after g) (byInput_some hb)
      · cases h

theorem parseInput_reads {W : World} {S : Service} {m : MethodId} {x : Xml} {v : Val}
    (h : parseInput W S (W.method m) x = .ok v) : ReadsInput W S m x v := by
  unfold parseInput at h
  split at h
  · next n hn =>
    simp only [bind_eq_ok] at h
    obtain ⟨e, he, e', he', h⟩ := h
    cases e with
    | none => cases he'
    | some e =>
      injection he' with he'; subst he'
      exact .element hn he h
  · next c hc => exact .cls hc h
  · cases h

theorem Xml.Named.unique {x : Xml} {a b : Str} (ha : x.Named a) (hb : x.Named b) : a = b := by
  obtain ⟨q, _, _, _, rfl, h1⟩ := ha
  obtain ⟨q', _, _, _, h, h2⟩ := hb
  injection h with h; subst h
  rw [← h1, h2]

/-! ### Running computations -/

theorem M.bind_ok {α β} {m : M α} {f : α → M β} {s s' : State} {a : α} (h : m s = (.ok a, s')) :
    M.bind m f s = f a s' := by
  unfold M.bind; rw [h]

theorem M.bind_error {α β} {m : M α} {f : α → M β} {s s' : State} {e : Exn} (h : m s = (.error e, s')) :
    M.bind m f s = (.error e, s') := by
  unfold M.bind; rw [h]

theorem M.lift_ok {α β} {x : Except Exn α} {f : α → M β} {s : State} {a : α} (h : x = .ok a) :
    M.bind (M.lift x) f s = f a s := by
  subst h; rfl

theorem M.lift_error {α β} {x : Except Exn α} {f : α → M β} {s : State} {e : Exn} (h : x = .error e) :
    M.bind (M.lift x) f s = (.error e, s) := by
  subst h; rfl

theorem M.optE_some {α β} {e : Exn} {f : α → M β} {s : State} {a : α} :
    M.bind (M.lift (optE e (some a))) f s = f a s := rfl

theorem M.optE_none {α β} {e : Exn} {f : α → M β} {s : State} :
    M.bind (M.lift (optE e none)) f s = (.error e, s) := rfl

theorem getReq_some {r : ReqId} {s : State} {q : Req} (h : s.reqs[r]? = some q) : getReq r s = (.ok q, s) := by
  unfold getReq; rw [h]

theorem getReq_none {r : ReqId} {s : State} (h : s.reqs[r]? = none) : getReq r s = (.error .attributeError, s) := by
  unfold getReq; rw [h]

theorem setReq_bind {β} {r : ReqId} {q : Req} {f : Unit → M β} {s : State} :
    M.bind (setReq r q) f s = f () { s with reqs := s.reqs.set r q } := rfl

/-- Preparation that succeeds makes the request ready. -/
theorem prepare_ok {W : World} {d : Dispatcher} {r : ReqId} {s s' : State}
    (h : prepareRequest W d r s = (.ok (), s')) :
    ∃ q header x m hv b, s.reqs[r]? = some q ∧ readAndValidate W d q.content = .ok (header, x) ∧
      findHandler W d.service q.environ x = .ok m ∧ parseHeaderPart W d.service (W.method m) header = .ok hv ∧
      parseInput W d.service (W.method m) x = .ok b ∧
      s'.reqs[r]? = some { q with method := some m, soapHeader := hv, soapBody := b } ∧ s'.trace = s.trace := by
  unfold prepareRequest at h
  simp only [M_bind] at h
  cases hq : s.reqs[r]? with
  | none => rw [M.bind_error (getReq_none hq)] at h; simp at h
  | some q =>
    rw [M.bind_ok (getReq_some hq)] at h
    cases h1 : readAndValidate W d q.content with
    | error e => rw [M.lift_error h1] at h; simp at h
    | ok p =>
      obtain ⟨header, x⟩ := p
      rw [M.lift_ok h1] at h
      simp only at h
      cases h2 : findHandler W d.service q.environ x with
      | error e => rw [M.lift_error h2] at h; simp at h
      | ok m =>
        rw [M.lift_ok h2, setReq_bind] at h
        cases h3 : parseHeaderPart W d.service (W.method m) header with
        | error e => rw [M.lift_error h3] at h; simp at h
        | ok hv =>
          rw [M.lift_ok h3, setReq_bind] at h
          cases h4 : parseInput W d.service (W.method m) x with
          | error e => rw [M.lift_error h4] at h; simp at h
          | ok b =>
            rw [M.lift_ok h4] at h
            refine ⟨q, header, x, m, hv, b, rfl, h1, h2, h3, h4, ?_, ?_⟩
            · simp only [setReq, Prod.mk.injEq, true_and] at h
              rw [← h]
              have hlt : r < s.reqs.length := (List.getElem?_eq_some_iff.1 hq).1
              simp [hlt]
            · simp only [setReq, Prod.mk.injEq, true_and] at h
              rw [← h]

theorem Emits.prepare {P : Event → Prop} (W : World) (d : Dispatcher) (r : ReqId) : Emits P (prepareRequest W d r) := by
  unfold prepareRequest
  simp only [M_bind]
  refine .bind (.getReq r) fun q => .bind (.lift _) fun p => ?_
  obtain ⟨header, x⟩ := p
  exact .bind (.lift _) fun m => .bind (.setReq _ _) fun _ => .bind (.lift _) fun h => .bind (.setReq _ _) fun _ =>
    .bind (.lift _) fun b => .setReq _ _

theorem Emits.none {α} {m : M α} (h : Emits (fun _ => False) m) (s : State) : (m s).2.trace = s.trace := by
  obtain ⟨es, h1, h2⟩ := h s
  cases es with
  | nil => simpa using h1
  | cons e es => exact (h2 e (by simp)).elim

/-- Every method call made by `call_method` is a good one. -/
theorem callMethod_emits (W : World) (r : ReqId) :
    Emits (fun e => CallOk W e ∧ e.NotHook) (callMethod W r) := by
  intro s
  unfold callMethod
  simp only [M_bind]
  cases hq : s.reqs[r]? with
  | none => rw [M.bind_error (getReq_none hq)]; exact ⟨[], by simp, by simp⟩
  | some q =>
    rw [M.bind_ok (getReq_some hq)]
    cases hd : q.dispatcher with
    | none => rw [M.optE_none]; exact ⟨[], by simp, by simp⟩
    | some d =>
      rw [M.optE_some]
      have ht := Emits.none (Emits.prepare W (W.disp d) r) s
      rcases hp : prepareRequest W (W.disp d) r s with ⟨o, s1⟩
      rw [hp] at ht
      cases o with
      | error e => rw [M.bind_error hp]; exact ⟨[], by simpa using ht, by simp⟩
      | ok u =>
        rw [M.bind_ok hp]
        obtain ⟨q0, header, x, m, hv, b, hq0, h1, h2, h3, h4, h5, h6⟩ := prepare_ok hp
        rw [hq] at hq0; injection hq0 with hq0; subst hq0
        rw [M.bind_ok (getReq_some h5), M.optE_some]
        cases hf : (W.method m).function with
        | none =>
          rw [M.optE_none]
          exact ⟨[], by simpa using ht, by simp⟩
        | some f =>
          rw [M.optE_some]
          have hgood : CallOk W (.method m r { q with method := some m, soapHeader := hv, soapBody := b } b) := by
            obtain ⟨root, hr1, hr2⟩ := findHandler_handles h2
            exact ⟨d, x, root, hd, readAndValidate_checked h1, hr1, hr2, parseInput_reads h4⟩
          have := Emits.bind (P := fun e => CallOk W e ∧ e.NotHook) (Emits.emit ⟨hgood, trivial⟩) (fun _ =>
            Emits.bind (Emits.run' (P := fun e => CallOk W e ∧ e.NotHook) (fun e => ⟨trivial, trivial⟩) (f r b))
              (fun ret => Emits.pure (Ret.response ret.toResponse))) s1
          obtain ⟨es, e1, e2⟩ := this
          exact ⟨es, by rw [← ht]; exact e1, e2⟩

theorem chain_emits (W : World) (ms : List Middleware) :
    ∀ r, Emits (fun e => CallOk W e ∧ e.NotHook) (chain W ms r) := by
  induction ms with
  | nil => exact callMethod_emits W
  | cons m ms ih => exact fun r => Emits.run (fun e => ⟨trivial, trivial⟩) (fun _ r' => ih r') (m r)

end Soapfish
