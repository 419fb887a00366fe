import Verif.Spec.Robust
import Verif.Props.Dispatch
import Verif.Props.Answer
import Verif.Props.CodeReads
/-
Lemmas about reading arbitrary SOAP documents, and about what a call of a method can come to.
-/
namespace Soapfish

/-! ### Reading -/

theorem last_filter {x : Xml} {name : Str} {f : Field} (hname : f.name = name) (htag : f.tagname = none) :
    (∃ us u, x.kids.filter f.claims = us ++ [u] ∧ LastChild x name u) ∨
      (x.kids.filter f.claims = [] ∧ ∀ u ∈ x.kids, ¬ u.Named name) := by
  have hcl := claims_named htag
  rw [hname] at hcl
  rcases List.eq_nil_or_concat (x.kids.filter f.claims) with h | ⟨us, u, h⟩
  · refine .inr ⟨h, fun u hu hn => ?_⟩
    have : u ∈ x.kids.filter f.claims := List.mem_filter.2 ⟨hu, claims_bool.2 ((hcl u).2 hn)⟩
    rw [h] at this
    cases this
  · rw [List.concat_eq_append] at h
    refine .inl ⟨us, u, h, ?_⟩
    obtain ⟨pre, post, h1, h2, h3⟩ := List.filter_eq_append_iff.1 h
    obtain ⟨p1, p2, h4, h5, h6, h7⟩ := List.filter_eq_cons_iff.1 h3
    refine ⟨pre ++ p1, p2, by rw [h1, h4]; simp, (hcl u).1 (claims_bool.1 h6), ?_⟩
    intro y hy hcy
    have : y ∈ p2.filter f.claims := List.mem_filter.2 ⟨hy, claims_bool.2 ((hcl y).2 hcy)⟩
    rw [h7] at this
    cases this

theorem LastChild.mem {x : Xml} {name : Str} {u : Xml} (h : LastChild x name u) : u ∈ x.kids ∧ u.Named name := by
  obtain ⟨pre, post, h1, h2, _⟩ := h
  exact ⟨by rw [h1]; simp, h2⟩

/-- A loop in which every step succeeds and forgets what was before. -/
theorem foldE_forget {α σ : Type} {f : σ → α → Except Exn σ} {g : α → Except Exn σ} (hfg : ∀ s a, f s a = g a) :
    ∀ {l : List α} {s : σ}, (∀ a ∈ l, ∃ w, g a = .ok w) → ∃ w, foldE f s l = .ok w ∧
      ((l = [] ∧ w = s) ∨ ∃ us u, l = us ++ [u] ∧ g u = .ok w) := by
  intro l
  induction l with
  | nil => intro s _; exact ⟨s, rfl, .inl ⟨rfl, rfl⟩⟩
  | cons a as ih =>
    intro s h
    obtain ⟨w, hw⟩ := h a (by simp)
    obtain ⟨w', h1, h2⟩ := ih (s := w) fun b hb => h b (by simp [hb])
    refine ⟨w', by simp only [foldE, hfg, hw, Except_ok_bind]; exact h1, .inr ?_⟩
    rcases h2 with ⟨rfl, rfl⟩ | ⟨us, u, rfl, hu⟩
    · exact ⟨[], a, rfl, hw⟩
    · exact ⟨a :: us, u, rfl, hu⟩

/-- A single-valued field of a document without processing instructions, all of whose claimants can be read. -/
theorem fieldVal_reads {T : Table} {N n : Nat} {f : Field} {cur : Val} {x : Xml}
    (hk : f.kind = .element ∨ f.kind = .classNamed) (htag : f.tagname = none) (hpi : NoInstruction x)
    (h : ∀ u ∈ x.kids, u.Named f.name → ∃ w, elemVal T (newInst T N) (parseCls T N n) f u = .ok w) :
    ∃ w, fieldVal T (newInst T N) (parseCls T N n) f cur x = .ok w ∧
      ((∃ u, LastChild x f.name u ∧ elemVal T (newInst T N) (parseCls T N n) f u = .ok w) ∨
        ((∀ u ∈ x.kids, ¬ u.Named f.name) ∧ w = cur)) := by
  have hfv : fieldVal T (newInst T N) (parseCls T N n) f cur x =
      foldE (oneVal T (newInst T N) (parseCls T N n) f) cur (x.kids.filter f.claims) := by
    unfold fieldVal
    rcases hk with hk | hk <;> simp only [hk, findSub_all hpi, Except_ok_bind]
  have hl : f.kind ≠ .list := by rcases hk with h | h <;> simp [h]
  rw [hfv]
  obtain ⟨w, h1, h2⟩ := foldE_forget (f := oneVal T (newInst T N) (parseCls T N n) f)
    (g := elemVal T (newInst T N) (parseCls T N n) f) (fun s a => by simp only [oneVal, if_neg hl])
    (l := x.kids.filter f.claims) (s := cur) (fun a ha => by
      obtain ⟨ha1, ha2⟩ := List.mem_filter.1 ha
      exact h a ha1 ((claims_named htag a).1 (claims_bool.1 ha2)))
  refine ⟨w, h1, ?_⟩
  rcases last_filter (x := x) rfl htag with ⟨us, u, e1, e2⟩ | ⟨e1, e2⟩
  · rcases h2 with ⟨h2, _⟩ | ⟨us', u', e3, h2⟩
    · rw [h2] at e1; simp at e1
    · rw [e1] at e3
      obtain ⟨_, e4⟩ := List.append_inj' e3 rfl
      injection e4 with e4
      subst e4
      exact .inl ⟨u, e2, h2⟩
  · rcases h2 with ⟨_, h2⟩ | ⟨us', u', e3, _⟩
    · exact .inr ⟨e2, h2⟩
    · rw [e1] at e3; simp at e3

def fHeader : Field := { name := py"Header", kind := .element, type := .complex cHeader, nillable := true }
def fBody : Field := { name := py"Body", kind := .element, type := .complex cBody }

/-- The value of a Body. -/
def bodyObj (b : Xml) : Val := .inst cBody [(py"message", Val.none), (py"Fault", Val.none)] (some b)

theorem parse_body_any {v : Version} {U : Table} {k n : Nat} {b : Xml} (hpi : NoInstruction b)
    (hno : ∀ y ∈ b.kids, ¬ y.Named py"message" ∧ ¬ y.Named py"Fault") :
    parseCls (soapTable v U) (k + 4) (n + 1) cBody b = .ok (bodyObj b) := by
  refine (parseCls_ok_iff (soap_names v U 3 (by decide)) (soap_choice v U 3 (by decide))).2
    ⟨[(py"message", Val.none), (py"Fault", Val.none)], _, by cases v <;> rfl, rfl, rfl, ?_⟩
  intro f hf
  have hf : f = { name := py"message", kind := .classNamed, type := .complex cNamed, required := false } ∨
      f = { name := py"Fault", kind := .element, type := .complex cFault, required := false } := by
    simpa [soapTable] using hf
  have key : f.tagname = none → (f.kind = .element ∨ f.kind = .classNamed) → (∀ y ∈ b.kids, ¬ y.Named f.name) →
      fieldVal (soapTable v U) (newInst (soapTable v U) (k + 4)) (parseCls (soapTable v U) (k + 4) n) f Val.none b =
        .ok Val.none := by
    intro htag hk hn
    obtain ⟨w, h1, ⟨u, h2, _⟩ | ⟨_, rfl⟩⟩ := fieldVal_reads (T := soapTable v U) (N := k + 4) (n := n) (cur := Val.none)
      hk htag hpi (fun u hu hnm => absurd hnm (hn u hu))
    · exact absurd h2.mem.2 (hn u h2.mem.1)
    · exact h1
  rcases hf with rfl | rfl
  · exact ⟨Val.none, Val.none, rfl, key rfl (.inr rfl) (fun y hy => (hno y hy).1), rfl⟩
  · exact ⟨Val.none, Val.none, rfl, key rfl (.inl rfl) (fun y hy => (hno y hy).2), rfl⟩

theorem elemVal_body {v : Version} {U : Table} {k n : Nat} {b : Xml} (hnil : ¬ IsNil b) (hpi : NoInstruction b)
    (hno : ∀ y ∈ b.kids, ¬ y.Named py"message" ∧ ¬ y.Named py"Fault") :
    elemVal (soapTable v U) (newInst (soapTable v U) (k + 4)) (parseCls (soapTable v U) (k + 4) (n + 1)) fBody b =
      .ok (bodyObj b) := by
  unfold IsNil at hnil
  simp only [elemVal, fBody, if_neg hnil, parseType, parse_body_any hpi hno]
  cases v <;> rfl

theorem elemVal_header {v : Version} {U : Table} {k n : Nat} {h : Xml} :
    (IsNil h ∧ elemVal (soapTable v U) (newInst (soapTable v U) (k + 4)) (parseCls (soapTable v U) (k + 4) (n + 1)) fHeader h =
      .ok .nil) ∨
    (¬ IsNil h ∧ elemVal (soapTable v U) (newInst (soapTable v U) (k + 4)) (parseCls (soapTable v U) (k + 4) (n + 1)) fHeader h =
      .ok (.inst cHeader [] (some h))) := by
  by_cases hn : IsNil h
  · refine .inl ⟨hn, ?_⟩
    unfold IsNil at hn
    simp only [elemVal, fHeader, if_pos hn]
    cases v <;> rfl
  · refine .inr ⟨hn, ?_⟩
    unfold IsNil at hn
    simp only [elemVal, fHeader, if_neg hn, parseType, parse_header]
    cases v <;> rfl

/-- The header value of a readable document. -/
inductive HeaderIs (doc : Xml) : Val → Prop where
  | none : (∀ u ∈ doc.kids, ¬ u.Named py"Header") → HeaderIs doc Val.none
  | nil {h} : LastChild doc py"Header" h → IsNil h → HeaderIs doc .nil
  | some {h} : LastChild doc py"Header" h → ¬ IsNil h → HeaderIs doc (.inst cHeader [] (some h))

inductive BodyIs (doc : Xml) : Val → Prop where
  | none : (∀ u ∈ doc.kids, ¬ u.Named py"Body") → BodyIs doc Val.none
  | some {b} : LastChild doc py"Body" b → BodyIs doc (bodyObj b)

theorem parse_readable {v : Version} {U : Table} {k : Nat} {doc : Xml} (h : Readable doc) : ∃ hv bv,
    parseEnvelope (soapTable v U) (k + 4) doc = .ok (.inst cEnvelope [(py"Header", hv), (py"Body", bv)] (some doc)) ∧
      HeaderIs doc hv ∧ BodyIs doc bv := by
  obtain ⟨hv, h1, h1'⟩ := fieldVal_reads (T := soapTable v U) (N := k + 4) (n := k + 3) (f := fHeader) (cur := Val.none)
    (.inl rfl) rfl h.instructions (fun u _ _ => by
      rcases elemVal_header (v := v) (U := U) (k := k) (n := k + 2) (h := u) with ⟨_, h⟩ | ⟨_, h⟩ <;> exact ⟨_, h⟩)
  obtain ⟨bv, h2, h2'⟩ := fieldVal_reads (T := soapTable v U) (N := k + 4) (n := k + 3) (f := fBody) (cur := Val.none)
    (.inl rfl) rfl h.instructions (fun u hu hn => by
      obtain ⟨a, b, c⟩ := h.bodies u hu hn
      exact ⟨_, elemVal_body (n := k + 2) a b c⟩)
  refine ⟨hv, bv, ?_, ?_, ?_⟩
  · unfold parseEnvelope
    refine (parseCls_ok_iff (soap_names v U 5 (by decide)) (soap_choice v U 5 (by decide))).2
      ⟨[(py"Header", Val.none), (py"Body", Val.none)], _, by cases v <;> rfl, rfl, rfl, ?_⟩
    intro f hf
    have hf : f = fHeader ∨ f = fBody := by simpa [soapTable, fHeader, fBody] using hf
    rcases hf with rfl | rfl
    · exact ⟨Val.none, hv, rfl, h1, rfl⟩
    · exact ⟨Val.none, bv, rfl, h2, rfl⟩
  · rcases h1' with ⟨u, hu, he⟩ | ⟨hn, rfl⟩
    · rcases elemVal_header (v := v) (U := U) (k := k) (n := k + 2) (h := u) with ⟨hi, h⟩ | ⟨hi, h⟩
      · obtain rfl := Except.ok.inj (he.symm.trans h)
        exact .nil hu hi
      · obtain rfl := Except.ok.inj (he.symm.trans h)
        exact .some hu hi
    · exact .none hn
  · rcases h2' with ⟨u, hu, he⟩ | ⟨hn, rfl⟩
    · obtain ⟨a, b, c⟩ := h.bodies u hu.mem.1 hu.mem.2
      obtain rfl := Except.ok.inj (he.symm.trans (elemVal_body (n := k + 2) a b c))
      exact .some hu
    · exact .none hn

/-- A processing instruction among the children of the envelope. -/
theorem findSub_instruction {f : Field} {ks : List Xml} (h : .pi ∈ ks) : findSub f ks = .error .typeError := by
  induction ks with
  | nil => cases h
  | cons x xs ih =>
    cases x with
    | pi => rfl
    | comment => exact ih (by simpa using h)
    | elem q a t k =>
      have h : .pi ∈ xs := by simpa using h
      simp only [findSub, ih h]
      rfl

theorem foldE_first {α σ : Type} {f : σ → α → Except Exn σ} {s : σ} {a : α} {l : List α} {e : Exn}
    (h : f s a = .error e) : foldE f s (a :: l) = .error e := by
  simp only [foldE, h]
  rfl

theorem parse_instruction {v : Version} {U : Table} {k : Nat} {doc : Xml} (h : .pi ∈ doc.kids) :
    parseEnvelope (soapTable v U) (k + 4) doc = .error .typeError := by
  have h0 : newInst (soapTable v U) (k + 4) cEnvelope =
      .ok (.inst cEnvelope [(py"Header", Val.none), (py"Body", Val.none)] none) := by cases v <;> rfl
  have h1 : (soapTable v U cEnvelope).attrs = [] := rfl
  have h2 : (soapTable v U cEnvelope).elems = [fHeader, fBody] := rfl
  have h3 : (soapTable v U cEnvelope).choice = false := rfl
  unfold parseEnvelope
  simp only [parseCls, h0, h1, h2, h3, Except_ok_bind, foldE, parseSeq, findSub_instruction h]
  rfl

theorem foldE_fails {α σ : Type} {f : σ → α → Except Exn σ} {g : α → Except Exn σ} {e : Exn} (hfg : ∀ s a, f s a = g a) :
    ∀ {l : List α} {s : σ}, (∀ a ∈ l, g a = .error e ∨ ∃ w, g a = .ok w) → (∃ a ∈ l, g a = .error e) →
      foldE f s l = .error e := by
  intro l
  induction l with
  | nil => rintro s _ ⟨a, h, _⟩; cases h
  | cons a as ih =>
    rintro s h ⟨b, hb, he⟩
    simp only [foldE, hfg]
    rcases h a (by simp) with ha | ⟨w, ha⟩
    · rw [ha]; rfl
    · rw [ha]
      refine ih (fun c hc => h c (by simp [hc])) ⟨b, ?_, he⟩
      rcases List.mem_cons.1 hb with rfl | hb
      · rw [ha] at he; cases he
      · exact hb

theorem elemVal_nil_body {v : Version} {U : Table} {k n : Nat} {b : Xml} (hnil : IsNil b) :
    elemVal (soapTable v U) (newInst (soapTable v U) (k + 4)) (parseCls (soapTable v U) (k + 4) n) fBody b =
      .error .valueError := by
  unfold IsNil at hnil
  simp only [elemVal, fBody, if_pos hnil]
  cases v <;> rfl

theorem parseCls_succ {T : Table} {N n : Nat} {c : ClsId} {x : Xml} : parseCls T N (n + 1) c x = (do
    let inst ← newInst T N c
    let inst := withXml inst x
    let inst ← foldE (fun i f => parseAttr T (newInst T N) f i x) inst (T c).attrs
    let inst ← (if (T c).choice then parseChoice T (newInst T N) (parseCls T N n) x inst (T c).elems
      else foldE (parseSeq T (newInst T N) (parseCls T N n) x) inst (T c).elems)
    foldE (fun i f => parseElement T (newInst T N) (parseCls T N n) f i x) inst (T c).groups) := rfl

/-- A Body marked nil. -/
theorem parse_nil {v : Version} {U : Table} {k : Nat} {doc b : Xml} (hpi : NoInstruction doc) (hb : b ∈ doc.kids)
    (hname : b.Named py"Body") (hn : IsNil b) (hd : ∀ b ∈ doc.kids, b.Named py"Body" → IsNil b ∨
      (NoInstruction b ∧ ∀ y ∈ b.kids, ¬ y.Named py"message" ∧ ¬ y.Named py"Fault")) :
    parseEnvelope (soapTable v U) (k + 4) doc = .error .valueError := by
  have h0 : newInst (soapTable v U) (k + 4) cEnvelope =
      .ok (.inst cEnvelope [(py"Header", Val.none), (py"Body", Val.none)] none) := by cases v <;> rfl
  have e1 : (soapTable v U cEnvelope).attrs = [] := rfl
  have e2 : (soapTable v U cEnvelope).elems = [fHeader, fBody] := rfl
  have e3 : (soapTable v U cEnvelope).choice = false := rfl
  obtain ⟨hv, h1, _⟩ := fieldVal_reads (T := soapTable v U) (N := k + 4) (n := k + 3) (f := fHeader) (cur := Val.none)
    (.inl rfl) rfl hpi (fun u _ _ => by
      rcases elemVal_header (v := v) (U := U) (k := k) (n := k + 2) (h := u) with ⟨_, h⟩ | ⟨_, h⟩ <;> exact ⟨_, h⟩)
  have h2 : fieldVal (soapTable v U) (newInst (soapTable v U) (k + 4)) (parseCls (soapTable v U) (k + 4) (k + 3)) fBody
      Val.none doc = .error .valueError := by
    have hcl := claims_named (f := fBody) rfl
    have : fieldVal (soapTable v U) (newInst (soapTable v U) (k + 4)) (parseCls (soapTable v U) (k + 4) (k + 3)) fBody
        Val.none doc = foldE (oneVal (soapTable v U) (newInst (soapTable v U) (k + 4))
          (parseCls (soapTable v U) (k + 4) (k + 3)) fBody) Val.none (doc.kids.filter fBody.claims) := by
      simp only [fieldVal, fBody, findSub_all hpi, Except_ok_bind]
    rw [this]
    refine foldE_fails (g := elemVal (soapTable v U) (newInst (soapTable v U) (k + 4))
      (parseCls (soapTable v U) (k + 4) (k + 3)) fBody) (fun s a => by simp [oneVal, fBody]) (fun a ha => ?_)
      ⟨b, List.mem_filter.2 ⟨hb, claims_bool.2 ((hcl b).2 hname)⟩, elemVal_nil_body hn⟩
    obtain ⟨a1, a2⟩ := List.mem_filter.1 ha
    rcases hd a a1 ((hcl a).1 (claims_bool.1 a2)) with h | ⟨g1, g2⟩
    · exact .inl (elemVal_nil_body h)
    · by_cases h : IsNil a
      · exact .inl (elemVal_nil_body h)
      · exact .inr ⟨_, elemVal_body (n := k + 2) h g1 g2⟩
  unfold parseEnvelope
  have names : NamesNodup (soapTable v U cEnvelope) := soap_names v U 5 (by decide)
  have s1 : parseSeq (soapTable v U) (newInst (soapTable v U) (k + 4)) (parseCls (soapTable v U) (k + 4) (k + 3)) doc
      (.inst cEnvelope [(py"Header", Val.none), (py"Body", Val.none)] (some doc)) fHeader =
      .ok (.inst cEnvelope [(py"Header", hv), (py"Body", Val.none)] (some doc)) := by
    rw [parseSeq_eq names (by simp [soapTable, fHeader, cEnvelope]) (by unfold Shaped; rfl) rfl]
    show (fieldVal _ _ _ fHeader Val.none doc >>= _) = _
    rw [h1]
    rfl
  have s2 : parseSeq (soapTable v U) (newInst (soapTable v U) (k + 4)) (parseCls (soapTable v U) (k + 4) (k + 3)) doc
      (.inst cEnvelope [(py"Header", hv), (py"Body", Val.none)] (some doc)) fBody = .error .valueError := by
    rw [parseSeq_eq names (by simp [soapTable, fBody, cEnvelope]) (by unfold Shaped; rfl) rfl]
    show (fieldVal _ _ _ fBody Val.none doc >>= _) = _
    rw [h2]
    rfl
  rw [parseCls_succ, h0, e1, e2, e3, Except_ok_bind]
  show ((foldE _ (Val.inst cEnvelope [(py"Header", Val.none), (py"Body", Val.none)] (some doc)) [fHeader, fBody]) >>= _) = _
  simp only [foldE, s1, s2, Except_ok_bind]
  rfl

/-! ### Exceptions that are not SOAPErrors -/

/-- No SOAPError is raised. -/
structure Ns {α : Type} (x : Except Exn α) : Prop where
  other : ∀ e, x = .error e → OtherError e

theorem Ns.ok {α : Type} {a : α} : Ns (.ok a : Except Exn α) := ⟨nofun⟩
theorem Ns.err {α : Type} {e : Exn} (h : OtherError e) : Ns (.error e : Except Exn α) := by
  refine ⟨fun e' h' => ?_⟩
  injection h' with h'
  exact h' ▸ h
theorem Ns.bind {α β : Type} {x : Except Exn α} {f : α → Except Exn β} (h : Ns x) (h' : ∀ a, Ns (f a)) : Ns (x >>= f) := by
  cases x with
  | ok a => exact h' a
  | error e => exact Ns.err (h.other e rfl)
theorem Ns.map {α β : Type} {x : Except Exn α} {f : α → β} (h : Ns x) : Ns (x.map f) := by
  cases x with
  | ok a => exact Ns.ok
  | error e => exact Ns.err (h.other e rfl)
theorem Ns.optE {α : Type} {e : Exn} {o : Option α} (h : OtherError e) : Ns (optE e o) := by
  cases o with
  | none => exact Ns.err h
  | some a => exact Ns.ok

theorem Ns.foldE {α σ : Type} {f : σ → α → Except Exn σ} : ∀ {l : List α} {s : σ}, (∀ s, ∀ a ∈ l, Ns (f s a)) →
    Ns (foldE f s l)
  | [], _, _ => Ns.ok
  | a :: as, s, h => Ns.bind (h s a (by simp)) fun s' => Ns.foldE fun s b hb => h s b (by simp [hb])
theorem Ns.mapE {α β : Type} {f : α → Except Exn β} : ∀ {l : List α}, (∀ a ∈ l, Ns (f a)) → Ns (mapE f l)
  | [], _ => Ns.ok
  | a :: as, h => Ns.bind (h a (by simp)) fun s' => Ns.bind (Ns.mapE fun b hb => h b (by simp [hb])) fun _ => Ns.ok
theorem Ns.firstE {α β : Type} {f : α → Except Exn (Option β)} : ∀ {l : List α}, (∀ a ∈ l, Ns (f a)) → Ns (firstE f l)
  | [], _ => Ns.ok
  | a :: as, h => Ns.bind (h a (by simp)) fun o => by
      cases o with
      | none => exact Ns.firstE fun b hb => h b (by simp [hb])
      | some b => exact Ns.ok

theorem Ns.raiseIf {b : Bool} {e : Exn} (h : OtherError e) : Ns (raiseIf b e) := by
  unfold Soapfish.raiseIf
  split
  · exact Ns.err h
  · exact Ns.ok
theorem Ns.ifGiven {α : Type} {o : Option α} {f : α → Except Exn Unit} (h : ∀ a, Ns (f a)) : Ns (ifGiven o f) := by
  cases o with
  | none => exact Ns.ok
  | some a => exact h a

syntax "nosoap" : tactic
macro_rules | `(tactic| nosoap) => `(tactic| repeat' (first
  | exact Ns.ok | exact Ns.err (by nofun) | exact Ns.raiseIf (by nofun) | assumption
  | (with_reducible refine Ns.bind ?_ fun _ => ?_) | (with_reducible refine Ns.map ?_) | (with_reducible refine Ns.ifGiven fun _ => ?_) | split))

theorem Ns.stringAccept {f : StrFacets} {v : Atom} : Ns (stringAccept f v) := by
  unfold Soapfish.stringAccept; nosoap
theorem Ns.boolAccept {v : Atom} : Ns (boolAccept v) := by unfold Soapfish.boolAccept; nosoap
theorem Ns.boolPy {v : Atom} : Ns (boolPy v) := by unfold Soapfish.boolPy; nosoap
theorem Ns.mkXSDDate {y m d : Nat} {tz : Option Tz} : Ns (mkXSDDate y m d tz) := by unfold Soapfish.mkXSDDate; nosoap
theorem Ns.dateAccept {v : Atom} : Ns (dateAccept v) := by
  unfold Soapfish.dateAccept
  split <;> first | exact Ns.mkXSDDate | nosoap
theorem Ns.tzOf {t : TzText} : Ns (tzOf t) := by
  unfold Soapfish.tzOf
  split
  · exact Ns.ok
  · exact Ns.ok
  · exact Ns.err (by nofun)
  · dsimp only
    generalize tzOk _ = b
    cases b
    · exact Ns.err (by nofun)
    · exact Ns.ok
theorem Ns.datePy {v : Atom} : Ns (datePy v) := by
  unfold Soapfish.datePy
  repeat' (first | exact Ns.mkXSDDate | exact Ns.tzOf | exact Ns.ok | exact Ns.err (by nofun) | (with_reducible refine Ns.bind ?_ fun _ => ?_) | split)
theorem Ns.timeParse {iso : Iso} {s : Str} : Ns (timeParse iso s) := by unfold Soapfish.timeParse; nosoap
theorem Ns.timeAccept {iso : Iso} {v : Atom} : Ns (timeAccept iso v) := by
  unfold Soapfish.timeAccept
  split <;> first | exact Ns.timeParse | nosoap
theorem Ns.timePy {iso : Iso} {v : Atom} : Ns (timePy iso v) := by
  unfold Soapfish.timePy
  repeat' (first | exact Ns.timeParse | exact Ns.ok | exact Ns.err (by nofun) | split)
theorem Ns.datetimeAccept {iso : Iso} {v : Atom} (h : ∀ s, Ns (iso s)) : Ns (datetimeAccept iso v) := by
  unfold Soapfish.datetimeAccept
  split <;> first | exact Ns.map (h _) | nosoap
theorem Ns.datetimePy {iso : Iso} {v : Atom} (h : ∀ s, Ns (iso s)) : Ns (datetimePy iso v) := by
  unfold Soapfish.datetimePy
  repeat' (first | exact Ns.map (h _) | exact Ns.ok | exact Ns.err (by nofun) | split)
theorem Ns.ltE {a b : Atom} : Ns (a.ltE b) := by unfold Atom.ltE; nosoap
theorem Ns.leE {a b : Atom} : Ns (a.leE b) := by unfold Atom.leE; nosoap
theorem Ns.checkBound {bad : Atom → Except Exn Bool} {o : Option Atom} (h : ∀ b, Ns (bad b)) : Ns (checkBound bad o) := by
  unfold Soapfish.checkBound
  split
  · exact Ns.ok
  · exact Ns.bind (h _) fun _ => Ns.raiseIf (by nofun)
theorem Ns.checkFraction {n : Option Int} {s : Str} : Ns (checkFraction n s) := by unfold Soapfish.checkFraction; nosoap
theorem Ns.checkRestrictions {f : NumFacets} {v : Atom} : Ns (checkRestrictions f v) := by
  unfold Soapfish.checkRestrictions
  refine Ns.bind (Ns.ifGiven fun _ => Ns.raiseIf (by nofun)) fun _ => Ns.bind Ns.checkFraction fun _ =>
    Ns.bind (Ns.checkBound fun _ => Ns.leE) fun _ => Ns.bind (Ns.checkBound fun _ => Ns.ltE) fun _ =>
    Ns.bind (Ns.checkBound fun _ => Ns.leE) fun _ => Ns.bind (Ns.checkBound fun _ => Ns.ltE) fun _ =>
    Ns.bind (Ns.ifGiven fun _ => Ns.raiseIf (by nofun)) fun _ => Ns.ifGiven fun _ => Ns.raiseIf (by nofun)
theorem Ns.pyInt {s : Str} : Ns (pyInt s) := by unfold Soapfish.pyInt; nosoap
theorem Ns.pyFloat {s : Str} : Ns (pyFloat s) := by unfold Soapfish.pyFloat; dsimp only; nosoap
theorem Ns.decimalAccept {f : NumFacets} {v : Atom} : Ns (decimalAccept f v) := by
  unfold Soapfish.decimalAccept
  repeat' (first | exact Ns.checkRestrictions | exact Ns.pyFloat | exact Ns.ok | exact Ns.err (by nofun) | (with_reducible refine Ns.bind ?_ fun _ => ?_) | split)
theorem Ns.integerAccept {f : NumFacets} {v : Atom} : Ns (integerAccept f v) := by
  unfold Soapfish.integerAccept
  repeat' (first | exact Ns.checkRestrictions | exact Ns.pyInt | exact Ns.ok | exact Ns.err (by nofun) | (with_reducible refine Ns.bind ?_ fun _ => ?_) | split)
theorem Ns.pyIntOf {v : Atom} : Ns (pyIntOf v) := by
  unfold Soapfish.pyIntOf
  split <;> first | exact Ns.pyInt | nosoap
theorem Ns.maxOccursAccept {v : Atom} : Ns (maxOccursAccept v) := by
  unfold Soapfish.maxOccursAccept
  repeat' (first | exact Ns.map Ns.pyIntOf | exact Ns.ok | split)

/-- Dates are read without SOAPErrors. -/
def DatesOk (t : FType) : Prop := ∀ iso, t = .simple (.datetime iso) → ∀ s, Ns (iso s)

theorem Ns.accept {t : SType} {v : Atom} (h : DatesOk (.simple t)) : Ns (t.accept v) := by
  cases t with
  | string f => exact Ns.stringAccept
  | lang => exact Ns.stringAccept
  | boolean => exact Ns.boolAccept
  | date => exact Ns.dateAccept
  | datetime iso => exact Ns.datetimeAccept (h iso rfl)
  | time iso => exact Ns.timeAccept
  | decimal f => exact Ns.decimalAccept
  | integer f => exact Ns.integerAccept
  | maxOccurs => exact Ns.maxOccursAccept
theorem Ns.pythonvalue {t : SType} {v : Atom} (h : DatesOk (.simple t)) : Ns (t.pythonvalue v) := by
  cases t with
  | string f => exact Ns.ok
  | lang => exact Ns.ok
  | boolean => exact Ns.boolPy
  | date => exact Ns.datePy
  | datetime iso => exact Ns.datetimePy (h iso rfl)
  | time iso => exact Ns.timePy
  | decimal f => show Ns (nilOr _ v); unfold nilOr; split; exact Ns.ok; exact Ns.decimalAccept
  | integer f => show Ns (nilOr _ v); unfold nilOr; split; exact Ns.ok; exact Ns.integerAccept
  | maxOccurs => exact Ns.maxOccursAccept

section
variable {T : Table} {nw : ClsId → Except Exn Val} {pc : ParseCls} {f : Field}

theorem Ns.acceptItem {v : Val} (h : DatesOk f.type) : Ns (f.acceptItem T v) := by
  unfold Field.acceptItem
  split
  · nosoap
  · unfold FType.accept
    cases ht : f.type with
    | simple t => exact Ns.map (Ns.accept (ht ▸ h))
    | complex c => show Ns (acceptCls T c v); unfold acceptCls; nosoap
    | any => exact Ns.err (by nofun)
theorem Ns.evaluate {t : FType} (hn : ∀ c, Ns (nw c)) : Ns (evaluate nw t) := by
  cases t with
  | complex c => exact Ns.map (hn c)
  | simple t => exact Ns.ok
  | any => exact Ns.ok
theorem Ns.fieldAccept {v : Val} (h : DatesOk f.type) (hn : ∀ c, Ns (nw c)) : Ns (f.accept T nw v) := by
  unfold Field.accept
  split
  · exact Ns.ok
  · exact Ns.bind (Ns.evaluate hn) fun _ => Ns.acceptItem h
theorem Ns.emptyValue (hn : ∀ c, Ns (nw c)) : Ns (emptyValue nw f) := by
  unfold Soapfish.emptyValue
  repeat' (first | exact Ns.ok | exact hn _ | split)
theorem Ns.newInst (hT : ∀ c, ∀ f ∈ (T c).fields, DatesOk f.type) : ∀ {n : Nat} {c : ClsId}, Ns (newInst T n c)
  | 0, _ => Ns.err (by nofun)
  | n + 1, c => Ns.bind (Ns.mapE fun f hf => Ns.bind (Ns.emptyValue fun _ => Ns.newInst hT) fun _ =>
      Ns.bind (Ns.fieldAccept (hT c f hf) fun _ => Ns.newInst hT) fun _ => Ns.ok) fun _ => Ns.ok
theorem findField_in {fs : List Field} {name : Str} {f : Field} (h : findField fs name = .ok f) : f ∈ fs := by
  induction fs with
  | nil => cases h
  | cons g r ih =>
    unfold findField at h
    split at h
    · injection h with h; simp [h]
    · simp [ih h]
theorem Ns.findField {fs : List Field} {name : Str} : Ns (findField fs name) := by
  induction fs with
  | nil => exact Ns.err (by nofun)
  | cons g r ih =>
    unfold Soapfish.findField
    split
    · exact Ns.ok
    · exact ih
theorem Ns.setAttr (hT : ∀ c, ∀ f ∈ (T c).fields, DatesOk f.type) (hn : ∀ c, Ns (nw c)) {v w : Val} {name : Str} :
    Ns (setAttr T nw v name w) := by
  unfold Soapfish.setAttr
  split
  · next c fs x =>
    cases hf : Soapfish.findField (T c).fields name with
    | error e => exact Ns.err (Ns.findField.other e hf)
    | ok f =>
      rw [Except_ok_bind]
      exact Ns.bind (Ns.fieldAccept (hT c f (findField_in hf)) hn) fun _ => Ns.ok
  · exact Ns.err (by nofun)
theorem Ns.findSub {ks : List Xml} : Ns (findSub f ks) := by
  induction ks with
  | nil => exact Ns.ok
  | cons x xs ih =>
    cases x with
    | pi => exact Ns.err (by nofun)
    | comment => exact ih
    | elem q a t k => exact Ns.bind ih fun _ => Ns.ok
theorem Ns.parseType {t : FType} {x : Xml} (h : DatesOk t) (hp : ∀ c x, Ns (pc c x)) : Ns (parseType pc t x) := by
  cases t with
  | complex c => exact hp c x
  | any => exact Ns.err (by nofun)
  | simple s =>
    unfold Soapfish.parseType
    cases x with
    | elem q a t k => exact Ns.map (Ns.pythonvalue h)
    | comment => exact Ns.err (by nofun)
    | pi => exact Ns.err (by nofun)

variable (hT : ∀ c, ∀ f ∈ (T c).fields, DatesOk f.type) (hn : ∀ c, Ns (nw c)) (hp : ∀ c x, Ns (pc c x))
include hT hn

theorem Ns.parseAttr {inst : Val} {x : Xml} (h : DatesOk f.type) : Ns (parseAttr T nw f inst x) := by
  refine Ns.bind (Ns.evaluate hn) fun _ => Ns.bind ?_ fun _ => Ns.setAttr hT hn
  unfold attrValue
  split
  · next s hs => exact Ns.pythonvalue (hs ▸ h)
  · exact Ns.err (by nofun)

include hp
theorem Ns.parseElement {inst : Val} {x : Xml} (h : DatesOk f.type) : Ns (parseElement T nw pc f inst x) := by
  refine Ns.bind (Ns.evaluate hn) fun _ => Ns.bind ?_ fun _ => Ns.setAttr hT hn
  split
  · exact Ns.ok
  · exact Ns.parseType h hp
theorem Ns.parseOne {inst : Val} {x : Xml} (h : DatesOk f.type) : Ns (parseOne T nw pc f inst x) := by
  unfold Soapfish.parseOne
  split
  · refine Ns.bind (Ns.evaluate hn) fun _ => Ns.bind ?_ fun _ => ?_
    · split
      · exact Ns.ok
      · exact Ns.parseType h hp
    · unfold appendAttr
      repeat' (first | exact Ns.ok | exact Ns.err (by nofun) | split)
      refine Ns.bind ?_ fun _ => Ns.ok
      exact Ns.bind (Ns.evaluate hn) fun _ => Ns.bind (Ns.acceptItem h) fun _ =>
        Ns.bind (Ns.ifGiven fun _ => Ns.raiseIf (by nofun)) fun _ => Ns.ok
  · exact Ns.parseElement hT hn hp h
theorem Ns.parseSeq {inst : Val} {x : Xml} (h : DatesOk f.type) : Ns (parseSeq T nw pc x inst f) :=
  Ns.bind Ns.findSub fun _ => Ns.foldE fun _ _ _ => Ns.parseOne hT hn hp h
theorem Ns.parseChoice {inst : Val} {x : Xml} : ∀ {fs : List Field}, (∀ f ∈ fs, DatesOk f.type) →
    Ns (parseChoice T nw pc x inst fs)
  | [], _ => Ns.ok
  | f :: fs, h => by
    have ih := Ns.parseChoice (x := x) (inst := inst) (fs := fs) fun g hg => h g (by simp [hg])
    unfold Soapfish.parseChoice
    cases x with
    | pi => exact Ns.err (by nofun)
    | comment => exact ih
    | elem q a t k =>
      dsimp only
      split
      · exact Ns.parseOne hT hn hp (h f (by simp))
      · exact ih
end

theorem Ns.parseCls {T : Table} {N : Nat} (hT : ∀ c, ∀ f ∈ (T c).fields, DatesOk f.type) :
    ∀ {n : Nat} {c : ClsId} {x : Xml}, Ns (parseCls T N n c x)
  | 0, _, _ => Ns.err (by nofun)
  | n + 1, c, x => by
    have hn : ∀ c, Ns (Soapfish.newInst T N c) := fun _ => Ns.newInst hT
    have hp : ∀ c x, Ns (Soapfish.parseCls T N n c x) := fun _ _ => Ns.parseCls hT
    have hs : ∀ {p : Field → Bool} {f}, f ∈ (T c).fields.filter p → DatesOk f.type :=
      fun hf => hT c _ (List.mem_filter.1 hf).1
    refine Ns.bind (hn c) fun _ => Ns.bind (Ns.foldE fun _ f hf => Ns.parseAttr hT hn (hs hf)) fun _ => Ns.bind ?_ fun _ =>
      Ns.foldE fun _ f hf => Ns.parseElement hT hn hp (hs hf)
    split
    · exact Ns.parseChoice hT hn hp fun f hf => hs hf
    · exact Ns.foldE fun _ f hf => Ns.parseSeq hT hn hp (hs hf)

end Soapfish
