import Verif.ServiceLemmas
/-
Importing the code generated from the WSDL document of a service that survives.
-/
namespace Soapfish

/-! ### Names and what they stand for -/

theorem Globals.get_cons_self (n : Str) (o : GlobalObj) (g : Globals) : Globals.get ((n, o) :: g) n = some o := by
  simp [Globals.get]

theorem Globals.get_cons_ne {n k : Str} (o : GlobalObj) (g : Globals) (h : k ≠ n) : Globals.get ((k, o) :: g) n = g.get n := by
  simp [Globals.get, h]

theorem Globals.get_append_ne {l g : Globals} {n : Str} (h : ∀ p ∈ l, p.1 ≠ n) : Globals.get (l ++ g) n = g.get n := by
  induction l with
  | nil => rfl
  | cons p l ih =>
    rw [List.cons_append, show p = (p.1, p.2) from rfl, Globals.get_cons_ne _ _ (h p (List.mem_cons_self ..))]
    exact ih fun q hq => h q (List.mem_cons_of_mem _ hq)

theorem Globals.get_none {g : Globals} {n : Str} (h : ∀ p ∈ g, p.1 ≠ n) : g.get n = none := by
  have := Globals.get_append_ne (g := []) h
  rw [List.append_nil] at this
  exact this

/-- A name that always stands for the same thing. -/
theorem Globals.get_mem {l g : Globals} {n : Str} {o : GlobalObj} (hm : (n, o) ∈ l) (h : ∀ p ∈ l, p.1 = n → p.2 = o) :
    Globals.get (l ++ g) n = some o := by
  induction l with
  | nil => cases hm
  | cons p l ih =>
    rw [List.cons_append, show p = (p.1, p.2) from rfl]
    by_cases hp : p.1 = n
    · rw [hp, Globals.get_cons_self, h p (List.mem_cons_self ..) hp]
    · rw [Globals.get_cons_ne _ _ hp]
      refine ih ?_ fun q hq => h q (List.mem_cons_of_mem _ hq)
      rcases List.mem_cons.1 hm with rfl | hm
      · exact absurd rfl hp
      · exact hm

theorem execClasses_names {l : List PyClassDef} : ∀ {env env' : PyEnv}, execClasses env l = .ok env' →
    ∀ p ∈ env', p ∈ env ∨ p.1 ∈ l.map (·.name) := by
  induction l with
  | nil =>
    intro env env' h p hp
    rw [← Except.ok.inj h] at hp
    exact .inl hp
  | cons c l ih =>
    intro env env' h p hp
    cases h1 : execClass env c with
    | error e =>
      have h : (execClass env c >>= fun e => execClasses e l) = .ok env' := h
      rw [h1] at h; cases h
    | ok e1 =>
      have h : (execClass env c >>= fun e => execClasses e l) = .ok env' := h
      rw [h1] at h
      obtain ⟨o, rfl⟩ := execClass_env h1
      rcases ih h p hp with h2 | h2
      · rcases List.mem_cons.1 h2 with rfl | h2
        · exact .inr (by simp)
        · exact .inl h2
      · exact .inr (List.mem_cons_of_mem _ h2)

section
variable {g : GSchema} {limit : Nat}

theorem module_names {digest : Str → Str} {n : Str} (h : n ∈ (codeModule digest g).classes.map (·.name)) : n ∈ moduleNames g := by
  rw [moduleNames_eq]
  have h : n ∈ (_ ++ _ ++ _ : List PyClassDef).map (·.name) := h
  rw [List.map_append, List.map_append] at h
  rcases List.mem_append.1 h with h | h
  · rcases List.mem_append.1 h with h | h
    · obtain ⟨c, hc, rfl⟩ := List.mem_map.1 h
      obtain ⟨st, hst, rfl⟩ := List.mem_map.1 hc
      exact List.mem_append_left _ (List.mem_append_left _ (List.mem_map.2 ⟨st, hst, rfl⟩))
    · obtain ⟨d, hd, rfl⟩ := List.mem_map.1 h
      obtain ⟨c, hc, k, rfl⟩ := codeClasses_mem hd
      exact List.mem_append_left _ (List.mem_append_right _ (List.mem_map.2 ⟨c, hc, rfl⟩))
  · obtain ⟨d, hd, rfl⟩ := List.mem_map.1 h
    obtain ⟨c, hc, rfl⟩ := List.mem_map.1 hd
    exact List.mem_append_right _ (List.mem_map.2 ⟨c, hc, rfl⟩)

theorem execModule_names (hs : SchemaSurvives g limit) (digest : Str → Str) {env : PyEnv} {s' : GSchema}
    (h : execModule [] [] limit (codeModule digest g) = .ok (env, s')) : ∀ p ∈ env, ClassName p.1 := by
  have h : (checkModule (codeModule digest g) >>= fun _ => execClasses [] (codeModule digest g).classes >>= fun e =>
    execSchema [] e limit (codeModule digest g).schema >>= fun s => Except.ok (e, s)) = .ok (env, s') := h
  rw [check_codeModule hs digest] at h
  have h : (execClasses [] (codeModule digest g).classes >>= fun e =>
    execSchema [] e limit (codeModule digest g).schema >>= fun s => Except.ok (e, s)) = .ok (env, s') := h
  cases h1 : execClasses [] (codeModule digest g).classes with
  | error e => rw [h1] at h; cases h
  | ok e =>
    rw [h1] at h
    have h : (execSchema [] e limit (codeModule digest g).schema >>= fun s => Except.ok (e, s)) = .ok (env, s') := h
    cases h2 : execSchema [] e limit (codeModule digest g).schema with
    | error e => rw [h2] at h; cases h
    | ok s =>
      rw [h2] at h
      have h := Except.ok.inj h
      injection h with h _
      subst h
      intro p hp
      rcases execClasses_names h1 p hp with h | h
      · cases h
      · exact hs.names _ (module_names h)

end

/-! ### Syntax -/

theorem checkText_of {t : Str} (h : PlainText '\'' t) : checkText t = .ok () := by
  unfold checkText; rw [textValue_plain h]; rfl

theorem checkSignature_of {l : List Str} (h : ∀ n ∈ l, isIdent n = true) (hd : l.Nodup) : checkSignature l = .ok () := by
  unfold checkSignature
  rw [forE_all fun n hn => checkIdent_of (h n hn)]
  show (if l.Nodup then _ else _) = _
  rw [if_pos hd]

theorem method_ident {n : Str} (h : FunctionName n) : isIdent (n ++ py"_method") = true :=
  h.suffix (by decide +kernel) (no_kw_suffix _ (by decide +kernel))

theorem plain_append {a b : Str} {q : Char} (ha : PlainText q a) (hb : PlainText q b) : PlainText q (a ++ b) := by
  intro c hc
  rcases List.mem_append.1 hc with h | h
  · exact ha c h
  · exact hb c h

theorem plain_left {a b : Str} {q : Char} (h : PlainText q (a ++ b)) : PlainText q a := fun c hc => h c (List.mem_append_left _ hc)
theorem plain_right {a b : Str} {q : Char} (h : PlainText q (a ++ b)) : PlainText q b := fun c hc => h c (List.mem_append_right _ hc)

theorem plain_written {q c : Char} {o : Option Str} (h : PlainText q (written c o)) : PlainText q (written c (dropEmpty o)) := by
  cases o with
  | none => exact h
  | some s => cases s with
    | nil => exact fun c hc => by cases hc
    | cons => exact h

section
variable {server : Bool} {limit : Nat} {s : WService} {g : GSchema} {a : WebAddress}

theorem plain_template {a : WebAddress} (ht : PlainText '\'' a.text) : PlainText '\'' (templated a) := by
  unfold WebAddress.text WebAddress.rest at ht
  refine plain_append (by unfold PlainText; decide) ?_
  have h1 := plain_right ht
  exact plain_append (plain_append (plain_append (plain_left (plain_left (plain_left h1)))
    (plain_written (plain_right (plain_left (plain_left h1))))) (plain_written (plain_right (plain_left h1))))
    (plain_written (plain_right h1))

theorem plain_templated (h : ServiceSurvives server limit s g a) : PlainText '\'' (templated a) := plain_template h.location.2.2

theorem style_plain {m : WMethod} (h : m.style ∈ [none, some py"document", some py"rpc"]) :
    PlainText '\'' ((nonEmpty m.style).getD []) ∧ (nonEmpty m.style).getD py"document" = m.style.getD py"document" := by
  rcases style_cases h with h | h | h <;> rw [h] <;> exact ⟨by unfold PlainText; decide, rfl⟩

theorem check_method (h : ServiceSurvives server limit s g a) (hbu : WsdlBuildable s) {m : WMethod} (hm : m ∈ s.methods) :
    checkMethod (codeMethod server m) = .ok () := by
  obtain ⟨i, hi, hin, _⟩ := (h.methods m hm).input
  obtain ⟨o, ho, hon⟩ := (h.methods m hm).output
  obtain ⟨ac, hac, hacp⟩ := (h.methods m hm).soapAction
  have hname := (h.methods m hm).name.1
  have hb : PlainText '\'' py"body" := by unfold PlainText; decide
  simp only [checkMethod, codeMethod, survivingMethod, forE, hi, ho, hac, elementName, checkIdent_of (method_ident hname),
    checkParam, checkText_of hin.plain, checkText_of hon.plain, checkText_of hb, checkText_of hname.plain,
    checkText_of (style_plain (hbu.2 m hm).2.2).1, Option.getD_some, checkText_of hacp, checkIdent_of hname.ident]
  cases server <;> rfl

theorem check_function (h : ServiceSurvives true limit s g a) {m : WMethod} (hm : m ∈ s.methods) :
    checkFunction (codeFunction m) = .ok () := by
  obtain ⟨i, hi, hin, hne⟩ := (h.methods m hm).input
  obtain ⟨o, ho, hon⟩ := (h.methods m hm).output
  have hne : i ≠ py"request" := hne
  have hname := (h.methods m hm).name.1
  unfold checkFunction codeFunction
  simp only [hi, ho, elementName]
  rw [checkIdent_of hname.ident]
  have hsig : checkSignature [py"request", i] = .ok () := by
    refine checkSignature_of (fun n hn => ?_) ?_
    · simp only [List.mem_cons, List.not_mem_nil, or_false] at hn
      rcases hn with rfl | rfl
      · decide +kernel
      · exact hin.ident
    · simp only [List.nodup_cons, List.mem_singleton, List.not_mem_nil, not_false_eq_true, List.nodup_nil, and_true]
      exact fun h => hne h.symm
  show (checkSignature [py"request", i] >>= fun _ => checkReturn o) = _
  rw [hsig]
  show checkReturn o = _
  unfold checkReturn
  rw [if_pos (.inl hon.ident)]

theorem not_startsWith {p n : Str} (h : ¬ p <+: n) : startsWith p n = false := by
  cases hs : startsWith p n with
  | false => rfl
  | true => exact absurd (List.isPrefixOf_iff_prefix.1 hs) h

theorem check_call (h : ServiceSurvives false limit s g a) {m : WMethod} (hm : m ∈ s.methods) :
    (do checkMember (codeCall m).1; checkSignature [py"self", (codeCall m).2, py"header"]; checkText (codeCall m).1) = .ok () := by
  obtain ⟨i, hi, hin, hne⟩ := (h.methods m hm).input
  have hne : i ≠ py"self" ∧ i ≠ py"header" := hne
  have hname := (h.methods m hm).name
  have hsig : checkSignature [py"self", i, py"header"] = .ok () := by
    refine checkSignature_of (fun n hn => ?_) ?_
    · simp only [List.mem_cons, List.not_mem_nil, or_false] at hn
      rcases hn with rfl | rfl | rfl
      · decide +kernel
      · exact hin.ident
      · decide +kernel
    · have h1 : py"self" ≠ py"header" := by decide
      have h2 : py"self" ≠ i := fun h => hne.1 h.symm
      simp [hne, h1, h2]
  simp only [codeCall, hi, elementName, hsig, checkMember, not_startsWith hname.2, checkIdent_of hname.1.ident,
    checkText_of hname.1.plain]
  rfl

theorem check_port (h : ServiceSurvives server limit s g a) (hbu : WsdlBuildable s) (digest : Str → Str) :
    checkPort (codePort digest server s g a) = .ok () := by
  have hm : forE checkMethod (s.methods.map (codeMethod server)) = .ok () := by
    refine forE_all fun x hx => ?_
    obtain ⟨m, hm, rfl⟩ := List.mem_map.1 hx
    exact check_method h hbu hm
  have hn1 : isIdent (s.name ++ py"Port" ++ py"_SERVICE") = true := by
    rw [List.append_assoc]
    exact ident_suffix h.name.1 h.name.2 (by decide +kernel) (no_kw_suffix _ (by decide +kernel))
  have hn2 : isIdent (s.name ++ py"Port" ++ py"ServiceStub") = true := by
    rw [List.append_assoc]
    exact ident_suffix h.name.1 h.name.2 (by decide +kernel) (no_kw_suffix _ (by decide +kernel))
  have hpn : PlainText '\'' (s.name ++ py"Port") := isIdent_plain (ident_suffix h.name.1 h.name.2 (by decide +kernel)
    (no_kw_suffix _ (by decide +kernel))) _ (.inl rfl)
  have ht := h.location.2.2
  unfold WebAddress.text at ht
  have hsch := plain_left (plain_left (plain_left ht))
  have hhost := plain_right (plain_left ht)
  unfold checkPort codePort
  cases server with
  | true =>
    have hf : forE checkFunction (s.methods.map codeFunction) = .ok () := by
      refine forE_all fun x hx => ?_
      obtain ⟨m, hm, rfl⟩ := List.mem_map.1 hx
      exact check_function h hm
    simp only [if_true, hf, hm, checkIdent_of hn1, checkText_of hpn, checkText_of h.nspace, checkText_of (plain_templated h)]
    rfl
  | false =>
    have hc : forE (fun c : Str × Str => do
        checkMember c.1
        checkSignature [py"self", c.2, py"header"]
        checkText c.1) (s.methods.map codeCall) = .ok () := by
      refine forE_all fun x hx => ?_
      obtain ⟨m, hm, rfl⟩ := List.mem_map.1 hx
      exact check_call h hm
    simp only [Bool.false_eq_true, if_false, hm, checkIdent_of hn1, checkText_of hpn, checkText_of h.nspace,
      checkText_of (plain_templated h), checkStub, checkIdent_of hn2, checkText_of hsch, checkText_of hhost, forE]
    show (forE _ (s.methods.map codeCall)) = _
    exact hc

/-! ### Execution -/

/-- The method object -/
def methodObj (server : Bool) (m : WMethod) : MethodObj where
  operationName := m.operationName
  soapAction := m.soapAction.getD []
  input := m.input
  output := m.output
  function := if server then some m.operationName else none
  style := m.style.getD py"document"

theorem literal_plain {t : Str} (h : PlainText '\'' t) : literal (textValue '\'' t) = .ok t := by
  rw [textValue_plain h]; rfl

theorem exec_method (h : ServiceSurvives server limit s g a) (hbu : WsdlBuildable s) {m : WMethod} (hm : m ∈ s.methods)
    {G : Globals} (hx : G.get py"xsd" = none) (hf : server = true → G.get m.operationName = some .function) :
    execMethod G (codeMethod server m) = .ok ((m.operationName ++ py"_method", .method (methodObj server m)) :: G) := by
  obtain ⟨i, hi, hin, _⟩ := (h.methods m hm).input
  obtain ⟨o, ho, hon⟩ := (h.methods m hm).output
  obtain ⟨ac, hac, hacp⟩ := (h.methods m hm).soapAction
  have hname := (h.methods m hm).name.1
  have hb : PlainText '\'' py"body" := by unfold PlainText; decide
  obtain ⟨hst1, hst2⟩ := style_plain (hbu.2 m hm).2.2
  have hstyle : styleValue (nonEmpty m.style) = .ok (m.style.getD py"document") := by
    cases hs : nonEmpty m.style with
    | none => rw [hs] at hst2; rw [← hst2]; rfl
    | some t =>
      rw [hs] at hst1 hst2
      rw [← hst2]
      exact literal_plain hst1
  have hmod : moduleName G py"xsd" = .ok () := by unfold moduleName; rw [hx]
  have hfn : (if server then functionNamed G m.operationName else .ok none) =
      .ok (if server then some m.operationName else none) := by
    cases server with
    | false => rfl
    | true =>
      show functionNamed G m.operationName = _
      unfold functionNamed
      rw [hf rfl]; rfl
  unfold execMethod codeMethod survivingMethod methodObj
  rw [hi, ho, hac]
  show (moduleName G py"xsd" >>= _) = _
  rw [hmod]
  show ((if server then functionNamed G m.operationName else .ok none) >>= _) = _
  rw [hfn]
  show (literal (textValue '\'' ac) >>= _) = _
  rw [literal_plain hacp]
  simp only [elementName, execParam, literal_plain hin.plain, literal_plain hon.plain, literal_plain hb]
  show (literal (textValue '\'' m.operationName) >>= _) = _
  rw [literal_plain hname.plain]
  show (styleValue (nonEmpty m.style) >>= _) = _
  rw [hstyle]
  rfl

theorem append_inj {a b t : Str} (h : a ++ t = b ++ t) : a = b := List.append_cancel_right h

theorem exec_methods (h : ServiceSurvives server limit s g a) (hbu : WsdlBuildable s) : ∀ (l : List WMethod),
    (∀ m ∈ l, m ∈ s.methods) → ∀ {G : Globals}, G.get py"xsd" = none →
    (server = true → ∀ m ∈ l, G.get m.operationName = some .function) →
    execMethods G (l.map (codeMethod server)) =
      .ok ((l.map fun m => (m.operationName ++ py"_method", .method (methodObj server m))).reverse ++ G) := by
  intro l
  induction l with
  | nil => intro _ G _ _; rfl
  | cons m l ih =>
    intro hl G hx hf
    show (execMethod G (codeMethod server m) >>= fun g => execMethods g (l.map (codeMethod server))) = _
    rw [exec_method h hbu (hl m (List.mem_cons_self ..)) hx fun hs => hf hs m (List.mem_cons_self ..)]
    show execMethods _ (l.map (codeMethod server)) = _
    rw [ih (fun k hk => hl k (List.mem_cons_of_mem _ hk))]
    · simp
    · rw [Globals.get_cons_ne _ _ _, hx]
      intro he
      have := congrArg List.length he
      simp at this
    · intro hs k hk
      rw [Globals.get_cons_ne _ _ _, hf hs k (List.mem_cons_of_mem _ hk)]
      exact fun he => ((h.functions hs k (hl k (List.mem_cons_of_mem _ hk))).2.2.2 m (hl m (List.mem_cons_self ..))) he.symm

theorem defFunctions_eq (l : List PyFunction) : ∀ G, defFunctions G l = (l.map fun f => (f.name, GlobalObj.function)).reverse ++ G := by
  induction l with
  | nil => intro G; rfl
  | cons f l ih => intro G; simp [defFunctions, ih]

theorem schema_ne_method {k d : Str} (hd : d.length = 5) : k ++ py"_method" ≠ py"Schema_" ++ d := by
  intro h
  have hl := congrArg List.length h
  simp only [List.length_append, hd] at hl
  have hk : k.length = 5 := by
    have : (py"_method").length = 7 := rfl
    have : (py"Schema_").length = 7 := rfl
    omega
  have h5 : (k ++ py"_method")[5]? = (py"Schema_" ++ d)[5]? := by rw [h]
  rw [List.getElem?_append_right (by omega), hk] at h5
  rw [List.getElem?_append_left (by decide)] at h5
  revert h5; decide

theorem mapI_map {α β γ : Type} {f : β → Except ImportErr γ} {p : α → β} {r : α → γ} {l : List α}
    (h : ∀ a ∈ l, f (p a) = .ok (r a)) : mapI f (l.map p) = .ok (l.map r) := by
  induction l with
  | nil => rfl
  | cons a l ih =>
    show (f (p a) >>= fun b => mapI f (l.map p) >>= fun bs => Except.ok (b :: bs)) = _
    rw [h a (List.mem_cons_self ..), ih fun b hb => h b (List.mem_cons_of_mem _ hb)]
    rfl

theorem nodup_key {α : Type} {f : α → Str} {l : List α} (h : (l.map f).Nodup) {a b : α} (ha : a ∈ l) (hb : b ∈ l)
    (he : f a = f b) : a = b := by
  induction l with
  | nil => cases ha
  | cons c l ih =>
    rw [List.map_cons, List.nodup_cons] at h
    rcases List.mem_cons.1 ha with ha | ha <;> rcases List.mem_cons.1 hb with hb | hb
    · rw [ha, hb]
    · exact absurd (List.mem_map.2 ⟨b, hb, by rw [← he, ha]⟩) h.1
    · exact absurd (List.mem_map.2 ⟨a, ha, by rw [he, hb]⟩) h.1
    · exact ih h.2 ha hb

/-- The service object -/
def serviceObj (server : Bool) (s : WService) (g' : GSchema) (a : WebAddress) : ServiceObj where
  name := s.name ++ py"Port"
  targetNamespace := s.targetNamespace
  location := templated a
  schemas := [g']
  methods := s.methods.map (methodObj server)
  version := s.version

def stubObj (s : WService) (g' : GSchema) (a : WebAddress) : StubObj where
  name := s.name ++ py"Port" ++ py"ServiceStub"
  service := serviceObj false s g' a
  scheme := a.scheme
  host := a.host
  calls := s.methods.map fun m => (m.operationName, elementName m.input, m.operationName)

theorem exec_port (h : ServiceSurvives server limit s g a) (hbu : WsdlBuildable s) {digest : Str → Str}
    (hdig : (digest g.targetNamespace).length = 5) {env : PyEnv} (henv : ∀ p ∈ env, ClassName p.1) (g' : GSchema) :
    ∃ G, execPort ((py"Schema_" ++ digest g.targetNamespace, .schema g') :: env.map fun p => (p.1, .cls p.2))
        (codePort digest server s g a) =
      .ok (G, ⟨serviceObj server s g' a, if server then none else some (stubObj s g' a)⟩) := by
  have hnever : ∀ n : Str, (∀ c cs, n = c :: cs → ¬ ('A' ≤ c ∧ c ≤ 'Z')) → n ≠ py"Schema_" ++ digest g.targetNamespace →
      Globals.get ((py"Schema_" ++ digest g.targetNamespace, .schema g') :: env.map fun p => (p.1, GlobalObj.cls p.2)) n = none := by
    intro n hn hne
    refine Globals.get_none fun p hp => ?_
    rcases List.mem_cons.1 hp with rfl | hp
    · exact fun h => hne h.symm
    · obtain ⟨q, hq, rfl⟩ := List.mem_map.1 hp
      rintro rfl
      obtain ⟨⟨c, cs, he, hc, _⟩, _⟩ := henv q hq
      exact hn c cs he hc
  generalize hG0 : ((py"Schema_" ++ digest g.targetNamespace, GlobalObj.schema g') :: env.map fun p => (p.1, .cls p.2)) = G0
    at hnever
  generalize hF : ((if server then s.methods.map codeFunction else []).map fun f => (f.name, GlobalObj.function)).reverse = F
  have hFmem : ∀ p ∈ F, server = true ∧ p.2 = .function ∧ ∃ m ∈ s.methods, p.1 = m.operationName := by
    intro p hp
    rw [← hF, List.mem_reverse] at hp
    obtain ⟨f, hf, rfl⟩ := List.mem_map.1 hp
    cases server with
    | false => cases hf
    | true =>
      obtain ⟨m, hm, rfl⟩ := List.mem_map.1 hf
      exact ⟨rfl, rfl, m, hm, rfl⟩
  have hxsd : Globals.get (F ++ G0) py"xsd" = none := by
    rw [Globals.get_append_ne]
    · refine hnever _ (fun c cs he => ?_) (fun he => ?_)
      · injection he with he _; subst he; decide
      · injection he with he _; revert he; decide
    · intro p hp
      obtain ⟨hs, _, m, hm, he⟩ := hFmem p hp
      rw [he]
      exact (h.functions hs m hm).1
  have hsoap : Globals.get (F ++ G0) py"soap" = none := by
    rw [Globals.get_append_ne]
    · refine hnever _ (fun c cs he => ?_) (fun he => ?_)
      · injection he with he _; subst he; decide
      · injection he with he _; revert he; decide
    · intro p hp
      obtain ⟨hs, _, m, hm, he⟩ := hFmem p hp
      rw [he]
      exact (h.functions hs m hm).2.1
  have hfun : server = true → ∀ m ∈ s.methods, Globals.get (F ++ G0) m.operationName = some .function := by
    intro hs m hm
    refine Globals.get_mem ?_ fun p hp _ => (hFmem p hp).2.1
    rw [← hF, List.mem_reverse, hs]
    exact List.mem_map.2 ⟨codeFunction m, List.mem_map.2 ⟨m, hm, rfl⟩, rfl⟩
  have hsch : Globals.get (F ++ G0) (py"Schema_" ++ digest g.targetNamespace) = some (.schema g') := by
    rw [Globals.get_append_ne, ← hG0, Globals.get_cons_self]
    intro p hp
    obtain ⟨hs, _, m, hm, he⟩ := hFmem p hp
    rw [he]
    exact fun he => (h.functions hs m hm).2.2.1 ⟨_, he.symm⟩
  have hms := exec_methods h hbu s.methods (fun _ h => h) hxsd hfun
  generalize hM : ((s.methods.map fun m => (m.operationName ++ py"_method", GlobalObj.method (methodObj server m))).reverse) = M
    at hms
  have hMmem : ∀ p ∈ M, ∃ m ∈ s.methods, p = (m.operationName ++ py"_method", .method (methodObj server m)) := by
    intro p hp
    rw [← hM, List.mem_reverse] at hp
    obtain ⟨m, hm, rfl⟩ := List.mem_map.1 hp
    exact ⟨m, hm, rfl⟩
  have hget : ∀ m ∈ s.methods, Globals.get (M ++ (F ++ G0)) (m.operationName ++ py"_method") = some (.method (methodObj server m)) := by
    intro m hm
    refine Globals.get_mem ?_ fun p hp he => ?_
    · rw [← hM, List.mem_reverse]
      exact List.mem_map.2 ⟨m, hm, rfl⟩
    · obtain ⟨k, hk, rfl⟩ := hMmem p hp
      rw [nodup_key h.distinct hk hm (append_inj he)]
  have hsoap' : Globals.get (M ++ (F ++ G0)) py"soap" = none := by
    rw [Globals.get_append_ne, hsoap]
    intro p hp
    obtain ⟨k, hk, rfl⟩ := hMmem p hp
    intro he
    have := congrArg List.length he
    simp at this
  have hsch' : Globals.get (M ++ (F ++ G0)) (py"Schema_" ++ digest g.targetNamespace) = some (.schema g') := by
    rw [Globals.get_append_ne, hsch]
    intro p hp
    obtain ⟨k, hk, rfl⟩ := hMmem p hp
    exact schema_ne_method hdig
  have hpn : PlainText '\'' (s.name ++ py"Port") := isIdent_plain (ident_suffix h.name.1 h.name.2 (by decide +kernel)
    (no_kw_suffix _ (by decide +kernel))) _ (.inl rfl)
  have ht := h.location.2.2
  unfold WebAddress.text at ht
  have hpsch := plain_left (plain_left (plain_left ht))
  have hphost := plain_right (plain_left ht)
  have hserv : execService (M ++ (F ++ G0)) (codePort digest server s g a) = .ok (serviceObj server s g' a) := by
    unfold execService codePort
    simp only [moduleName, hsoap', literal_plain hpn, literal_plain h.nspace, literal_plain (plain_templated h), mapI,
      schemaNamed, hsch']
    have hmm : mapI (fun m : PyMethod => methodNamed (M ++ (F ++ G0)) (m.name ++ py"_method")) (s.methods.map (codeMethod server)) =
        .ok (s.methods.map (methodObj server)) := by
      refine mapI_map fun m hm => ?_
      show methodNamed _ (m.operationName ++ py"_method") = _
      unfold methodNamed
      rw [hget m hm]
    show (mapI (fun m : PyMethod => methodNamed (M ++ (F ++ G0)) (m.name ++ py"_method")) (s.methods.map (codeMethod server))
      >>= _) = _
    rw [hmm]
    rfl
  unfold execPort
  have hdef : defFunctions G0 (codePort digest server s g a).functions = F ++ G0 := by
    rw [defFunctions_eq, ← hF]; rfl
  simp only [hdef]
  show ∃ G, (execMethods (F ++ G0) (s.methods.map (codeMethod server)) >>= _) = _
  rw [hms]
  show ∃ G, (execService (M ++ (F ++ G0)) (codePort digest server s g a) >>= _) = _
  rw [hserv]
  cases server with
  | true => exact ⟨_, rfl⟩
  | false =>
    have hcalls : mapI (fun c : Str × Str => do
        let operation ← literal (textValue '\'' c.1)
        .ok (c.1, c.2, operation)) (s.methods.map codeCall) =
        .ok (s.methods.map fun m => (m.operationName, elementName m.input, m.operationName)) := by
      refine mapI_map fun m hm => ?_
      show (literal (textValue '\'' m.operationName) >>= _) = _
      rw [literal_plain (h.methods m hm).name.1.plain]
      rfl
    have hstub : execStub (s.name ++ py"Port") (serviceObj false s g' a) ⟨a.scheme, a.host, s.methods.map codeCall⟩ =
        .ok (stubObj s g' a) := by
      unfold execStub
      have hno : ((s.methods.map codeCall).any fun c => c.1 ∈ stubClassNames) = false := by
        rw [List.any_eq_false]
        intro c hc
        obtain ⟨m, hm, rfl⟩ := List.mem_map.1 hc
        simp only [decide_eq_true_eq]
        exact h.calls rfl m hm
      simp only [hno, Bool.false_eq_true, if_false, literal_plain hpsch, literal_plain hphost]
      show (mapI (fun c : Str × Str => do
        let operation ← literal (textValue '\'' c.1)
        .ok (c.1, c.2, operation)) (s.methods.map codeCall) >>= _) = _
      rw [hcalls]
      rfl
    show ∃ G, (execStub (s.name ++ py"Port") (serviceObj false s g' a) ⟨a.scheme, a.host, s.methods.map codeCall⟩ >>= _) = _
    rw [hstub]
    exact ⟨_, rfl⟩

theorem execWsdl_of (h : ServiceSurvives server limit s g a) (hbu : WsdlBuildable s) {digest : Str → Str}
    (hdig : (digest g.targetNamespace).length = 5) :
    ∃ G g', SchemaBack g g' ∧ execWsdl limit ⟨[codeModule digest g], [codePort digest server s g a]⟩ =
      .ok (G, [⟨serviceObj server s g' a, if server then none else some (stubObj s g' a)⟩]) := by
  obtain ⟨env, g', h1, h2⟩ := execModule_ok h.schema.2 digest
  obtain ⟨G, hG⟩ := exec_port h hbu hdig (execModule_names h.schema.2 digest h1) g'
  refine ⟨G, g', h2, ?_⟩
  unfold execWsdl
  have e1 : forE checkModule [codeModule digest g] = .ok () := by
    simp only [forE, check_codeModule h.schema.2 digest]; rfl
  have e2 : forE checkPort [codePort digest server s g a] = .ok () := by
    simp only [forE, check_port h hbu digest]; rfl
  have e3 : execModules limit [] [] [codeModule digest g] = .ok (env, [(py"Schema_" ++ digest g.targetNamespace, g')]) := by
    simp only [execModules, List.map_nil, h1]; rfl
  simp only [e1, e2, e3]
  show (execPort ((py"Schema_" ++ digest g.targetNamespace, .schema g') :: env.map fun p => (p.1, .cls p.2))
        (codePort digest server s g a) >>= _) = _
  rw [hG]
  rfl

end

end Soapfish
