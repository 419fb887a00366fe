import Verif.ServiceRun
import Verif.Spec.Service
import Verif.Props.Wsdl
import Verif.Props.Endpoint
import Verif.RunSchema
import Verif.RunPlain
/-
The code generated from the WSDL document of a service that survives, and what importing it does.
-/
namespace Soapfish

/-! ### Reading -/

theorem readAttr_eq (v : Val) (n : Str) : readAttr v n = v.attr n := by
  cases v <;> rfl

theorem readStr_of {v : Val} {n s : Str} (h : v.attr n = some (.atom (.str s))) : readStr v n = some s := by
  unfold readStr; rw [readAttr_eq, h]

theorem readStr_optStr {v : Val} {n : Str} {s : Option Str} (h : v.attr n = some (optStr s)) : readStr v n = s := by
  unfold readStr; rw [readAttr_eq, h]
  cases s <;> rfl

theorem readStr_absent {v : Val} {n : Str} (h : v.attr n = some Val.none) : readStr v n = none := by
  unfold readStr; rw [readAttr_eq, h]

theorem readList_of {v : Val} {n : Str} {l : List Val} (h : HasItems v n l) : readList v n = l := by
  obtain ⟨t, h⟩ := h
  unfold readList; rw [readAttr_eq, h]

theorem readChild_of {v w u : Val} {n k : Str} (h : v.attr n = some w) (hw : w.attr k = some u) : readChild v n = some w := by
  unfold readChild; rw [readAttr_eq, h]
  cases w with
  | inst => rfl
  | _ => cases hw

theorem path_two {v u : Val} {n k : Str} (h : v.path [n, k] = some u) : ∃ w, readChild v n = some w ∧ w.attr k = some u := by
  have h : (v.attr n).bind (fun w => (w.attr k).bind fun u => some u) = some u := h
  cases h1 : v.attr n with
  | none => rw [h1] at h; cases h
  | some w =>
    rw [h1] at h
    have h : (w.attr k).bind (fun u => some u) = some u := h
    cases h2 : w.attr k with
    | none => rw [h2] at h; cases h
    | some u' =>
      rw [h2] at h
      injection h with h
      subst h
      exact ⟨w, readChild_of h1 h2, h2⟩

/-! ### Names -/

theorem FunctionName.ident {n : Str} (h : FunctionName n) : isIdent n = true := by
  obtain ⟨⟨c, cs, rfl, hc, hd, hcs⟩, hk⟩ := h
  have hl : isLetterC c = true := by
    unfold isLetterC
    rcases hc with hc | hc | hc | hc
    · simp [hc]
    · simp [hc]
    · simp [hc]
    · exact absurd hc hd
  show (isLetterC c && cs.all (fun d => isLetterC d || isDigitC d) && !decide ((c :: cs) ∈ kwlist)) = true
  rw [hl, identAll hcs]
  simp [hk]

theorem checkIdent_of {n : Str} (h : isIdent n = true) : checkIdent n = .ok () := by
  unfold checkIdent; rw [if_pos h]

theorem FunctionName.plain {n : Str} (h : FunctionName n) : PlainText '\'' n := isIdent_plain h.ident _ (.inl rfl)

theorem FunctionName.no_colon {n : Str} (h : FunctionName n) : ':' ∉ n := by
  obtain ⟨⟨c, cs, rfl, hc, _, hcs⟩, _⟩ := h
  have key : ∀ d, IdentChar d → ':' ≠ d := by
    rintro d hd rfl
    revert hd; unfold IdentChar; decide
  intro hm
  rcases List.mem_cons.1 hm with h | h
  · exact key _ hc h
  · exact key _ (hcs _ h) rfl

theorem FunctionName.ne_nil {n : Str} (h : FunctionName n) : n ≠ [] := by
  obtain ⟨⟨c, cs, rfl, _⟩, _⟩ := h
  simp

/-- Letters and digits followed by a suffix that is no keyword's end. -/
theorem ident_suffix {n suffix : Str} (hn : ∀ c ∈ n, IdentChar c) (hd : ∀ c cs, n = c :: cs → ¬ ('0' ≤ c ∧ c ≤ '9'))
    (hs : isIdent suffix = true) (hk : ∀ k ∈ kwlist, ¬ suffix <:+ k) : isIdent (n ++ suffix) = true := by
  cases n with
  | nil => exact hs
  | cons c cs =>
    have hl : isLetterC c = true := by
      have hc := hn c (List.mem_cons_self ..)
      unfold isLetterC
      rcases hc with hc | hc | hc | hc
      · simp [hc]
      · simp [hc]
      · simp [hc]
      · exact absurd hc (hd c cs rfl)
    have hsuf : suffix.all (fun d => isLetterC d || isDigitC d) = true := by
      cases suffix with
      | nil => rfl
      | cons e es =>
        have : (isLetterC e && es.all (fun d => isLetterC d || isDigitC d) && !decide ((e :: es) ∈ kwlist)) = true := hs
        simp only [Bool.and_eq_true] at this
        simp only [List.all_cons, this.1.1, this.1.2, Bool.true_or, Bool.and_self]
    have hnk : (c :: cs) ++ suffix ∉ kwlist := fun h => hk _ h ⟨_, rfl⟩
    show (isLetterC c && (cs ++ suffix).all (fun d => isLetterC d || isDigitC d) &&
      !decide (((c :: cs) ++ suffix) ∈ kwlist)) = true
    rw [hl, List.all_append, identAll fun d hd => hn d (List.mem_cons_of_mem _ hd), hsuf]
    simp only [Bool.and_self, hnk, decide_false, Bool.not_false]

theorem FunctionName.suffix {n suffix : Str} (h : FunctionName n) (hs : isIdent suffix = true)
    (hk : ∀ k ∈ kwlist, ¬ suffix <:+ k) : isIdent (n ++ suffix) = true := by
  obtain ⟨⟨c, cs, rfl, hc, hd, hcs⟩, _⟩ := h
  refine ident_suffix (fun e he => ?_) (fun e es he => ?_) hs hk
  · rcases List.mem_cons.1 he with rfl | he
    · exact hc
    · exact hcs e he
  · injection he with he _
    subst he
    exact hd

theorem no_kw_suffix (suffix : Str) (h : kwlist.all (fun k => !decide (suffix <:+ k)) = true) :
    ∀ k ∈ kwlist, ¬ suffix <:+ k := by
  intro k hk
  have := List.all_eq_true.1 h k hk
  simpa using this

/-! ### Generation -/

theorem localPart_sns {n : Str} (hc : ':' ∉ n) : localPart (some (py"sns:" ++ n)) = some n := by
  show some (lastPart ':' (py"sns" ++ ':' :: n)) = _
  rw [lastPart_prefix _ hc]

theorem onlyPart_of {message part : Val} (h : HasItems message py"parts" [part]) : onlyPart message = .ok part := by
  unfold onlyPart
  obtain ⟨t, ht⟩ := h
  have hn : message.isNone = false := by
    cases message with
    | inst => rfl
    | _ => cases ht
  rw [hn, readList_of ⟨t, ht⟩]
  rfl

theorem carries_element {message : Val} {n : Str} (h : Carries message (.element n)) (hc : ':' ∉ n) :
    partElement message = .ok (some n) ∧ paramCode message = .ok (some (.element n py"body")) := by
  obtain ⟨part, hi, hname, hel, hty⟩ := h
  have hp := onlyPart_of hi
  have he := readStr_of hel
  constructor
  · unfold partElement
    rw [hp]
    show Except.ok (localPart (readStr part py"element")) = _
    rw [he, localPart_sns hc]
  · unfold paramCode
    rw [readList_of hi, if_neg (by simp), hp]
    show (match nonEmpty (readStr part py"element") with
      | some _ => Except.ok (some (PyParam.element (textOf (localPart (readStr part py"element"))) (textOf (readStr part py"name"))))
      | none => _) = _
    rw [he, readStr_of hname, localPart_sns hc]
    rfl

/-- The statements for a method that survives. -/
def survivingMethod (server : Bool) (m : WMethod) (i o a : Str) : PyMethod :=
  ⟨m.operationName, [], server, a, some (.element i py"body"), none, some (.element o py"body"), none, nonEmpty m.style⟩

theorem methodCode_of {digest : Str → Str} {server : Bool} {d binding operation : Val} {m : WMethod} {i o a : Str}
    (h : DescribesMethod d binding m operation) (hi : m.input = .element i) (hic : ':' ∉ i) (ho : m.output = .element o)
    (hoc : ':' ∉ o) (ha : m.soapAction = some a) :
    methodCode digest server d binding operation = .ok (survivingMethod server m i o a) := by
  obtain ⟨hname, haction, hstyle, ⟨im, him, _, hcar⟩, ⟨om, hom, _, hcaro⟩, hih, hoh⟩ := h
  rw [hi] at hcar
  rw [ho] at hcaro
  unfold methodCode
  rw [him]
  show (getMessageObject d binding operation py"output" >>= _) = _
  rw [hom]
  show (getMessageHeader d operation py"input" >>= _) = _
  rw [hih]
  show (getMessageHeader d operation py"output" >>= _) = _
  rw [hoh]
  show (paramCode im >>= _) = _
  rw [(carries_element hcar hic).2]
  show (paramCode om >>= _) = _
  rw [(carries_element hcaro hoc).2]
  obtain ⟨so, hso, hact⟩ := path_two haction
  obtain ⟨so', hso', hst⟩ := path_two hstyle
  rw [hso] at hso'
  injection hso' with hso'
  subst hso'
  have e1 : soapActionText operation = a := by
    unfold soapActionText
    rw [hso]
    show textOf (readStr so py"soapAction") = a
    rw [readStr_optStr hact, ha]; rfl
  have e2 : styleText operation = nonEmpty m.style := by
    unfold styleText
    rw [hso]
    show nonEmpty (readStr so py"style") = _
    rw [readStr_optStr hst]
  show Except.ok _ = _
  rw [e1, e2, readStr_of hname]
  rfl

theorem functionCode_of {d binding operation : Val} {m : WMethod} {i o : Str} (h : DescribesMethod d binding m operation)
    (hi : m.input = .element i) (hic : ':' ∉ i) (ho : m.output = .element o) (hoc : ':' ∉ o) :
    functionCode d binding operation = .ok ⟨m.operationName, i, o⟩ := by
  obtain ⟨hname, _, _, ⟨im, him, _, hcar⟩, ⟨om, hom, _, hcaro⟩, _⟩ := h
  rw [hi] at hcar
  rw [ho] at hcaro
  unfold functionCode
  rw [him]
  show (getMessageObject d binding operation py"output" >>= _) = _
  rw [hom]
  show (partElement im >>= _) = _
  rw [(carries_element hcar hic).1]
  show (partElement om >>= _) = _
  rw [(carries_element hcaro hoc).1, readStr_of hname]
  rfl

theorem callCode_of {d binding operation : Val} {m : WMethod} {i : Str} (h : DescribesMethod d binding m operation)
    (hi : m.input = .element i) (hic : ':' ∉ i) : callCode d binding operation = .ok (m.operationName, i) := by
  obtain ⟨hname, _, _, ⟨im, him, _, hcar⟩, _⟩ := h
  rw [hi] at hcar
  unfold callCode
  rw [him]
  show (partElement im >>= _) = _
  rw [(carries_element hcar hic).1, readStr_of hname]
  rfl

/-- The element a part refers to. -/
def elementName : WPart → Str
  | .element n => n
  | _ => []

def codeMethod (server : Bool) (m : WMethod) : PyMethod :=
  survivingMethod server m (elementName m.input) (elementName m.output) (m.soapAction.getD [])

def codeFunction (m : WMethod) : PyFunction := ⟨m.operationName, elementName m.input, elementName m.output⟩

def codeCall (m : WMethod) : Str × Str := (m.operationName, elementName m.input)

def templated (a : WebAddress) : Str := py"${scheme}://${host}" ++ a.tidied.rest

/-- The statements for the port of a service that survives. -/
def codePort (digest : Str → Str) (server : Bool) (s : WService) (g : GSchema) (a : WebAddress) : PyPort where
  functions := if server then s.methods.map codeFunction else []
  methods := s.methods.map (codeMethod server)
  name := s.name ++ py"Port"
  targetNamespace := s.targetNamespace
  location := templated a
  schemas := [py"Schema_" ++ digest g.targetNamespace]
  version := s.version
  stub := if server then none else some ⟨a.scheme, a.host, s.methods.map codeCall⟩

theorem mapE_described {α β γ : Type} {R : α → β → Prop} {f : β → Except Exn γ} {g : α → γ} {as : List α} {bs : List β}
    (h : All2 R as bs) (hf : ∀ a ∈ as, ∀ b, R a b → f b = .ok (g a)) : mapE f bs = .ok (as.map g) := by
  induction h with
  | nil => rfl
  | @cons a b as bs hab _ ih =>
    show (f b >>= fun c => mapE f bs >>= fun cs => Except.ok (c :: cs)) = _
    rw [hf a (List.mem_cons_self ..) b hab, ih fun a ha b => hf a (List.mem_cons_of_mem _ ha) b]
    rfl

theorem urlTemplate_eq (ok : Str → Bool) (a : WebAddress) (h : a.Ok) : urlTemplate ok a.text = .ok (templated a) := by
  unfold urlTemplate
  rw [urlparse_eq ok a h]
  show Except.ok (urlunparse _) = _
  rw [urlunparse_eq a h]
  simp [templated]

section
variable {server : Bool} {limit : Nat} {s : WService} {g : GSchema} {a : WebAddress}

theorem ServiceSurvives.no_colon (h : ServiceSurvives server limit s g a) : ':' ∉ s.name := by
  intro hc
  have := h.name.1 _ hc
  revert this
  unfold IdentChar; decide

theorem ServiceSurvives.code (h : ServiceSurvives server limit s g a) {digest : Str → Str} {d binding : Val}
    {operations : List Val} (ho : All2 (DescribesMethod d binding) s.methods operations) :
    mapE (functionCode d binding) operations = .ok (s.methods.map codeFunction) ∧
    mapE (methodCode digest server d binding) operations = .ok (s.methods.map (codeMethod server)) ∧
    mapE (callCode d binding) operations = .ok (s.methods.map codeCall) := by
  refine ⟨mapE_described ho fun m hm o hd => ?_, mapE_described ho fun m hm o hd => ?_,
    mapE_described ho fun m hm o hd => ?_⟩
  all_goals
    obtain ⟨i, hi, hin, _⟩ := (h.methods m hm).input
    obtain ⟨o, ho, hon⟩ := (h.methods m hm).output
    obtain ⟨ac, hac, _⟩ := (h.methods m hm).soapAction
  · rw [functionCode_of hd hi hin.no_colon ho hon.no_colon]
    simp [codeFunction, hi, ho, elementName]
  · rw [methodCode_of hd hi hin.no_colon ho hon.no_colon hac]
    simp [codeMethod, hi, ho, hac, elementName]
  · rw [callCode_of hd hi hin.no_colon]
    simp [codeCall, hi, elementName]

/-- The schemas in a description of a service. -/
theorem described_schemas {v : Version} {d : Val} (hd : d.Same (definitionsOf v s)) :
    ∃ l, schemasOf d = l ∧ All2 (fun w g => w.Same (describe g)) l s.schemas ∧
      readStr d py"targetNamespace" = some s.targetNamespace := by
  obtain ⟨types, ht, htS⟩ := same_attr hd (definitionsV_types v _ _ _ _ _ _)
  obtain ⟨l, hl, hlS⟩ := attr_items htS (n := py"schemas") (t := false) (js := s.schemas.map describe) rfl
  refine ⟨l, ?_, ?_, readStr_of (attr_str hd (definitionsV_target v _ _ _ _ _ _))⟩
  · unfold schemasOf
    obtain ⟨t, hl'⟩ := hl
    rw [readChild_of ht hl']
    exact readList_of ⟨t, hl'⟩
  · generalize s.schemas = gs at hlS
    clear hl ht htS hd
    induction gs generalizing l with
    | nil => cases hlS; exact .nil
    | cons g gs ih =>
      cases hlS with
      | cons h1 h2 => exact .cons h1 (ih _ h2)

theorem schema_target {w : Val} (h : w.Same (describe g)) : readStr w py"targetNamespace" = some g.targetNamespace :=
  readStr_of (attr_str h rfl)

theorem wsdlToPy_of (h : ServiceSurvives server limit s g a) (hbu : WsdlBuildable s) (digest : Str → Str) (ok : Str → Bool)
    (n : Nat) {d : Val} (hd : d.Same (definitionsOf s.version s)) :
    wsdlToPy digest ok [some py"xsd"] (n + 1) server s.version d =
      .ok ⟨[codeModule digest g], [codePort digest server s g a]⟩ := by
  obtain ⟨service, port, binding, portType, operations, h1, h2, h3, h4, h5, h6, h7, h8, h9, h10⟩ :=
    C61_lookup s.version s d hd hbu h.distinct (fun m hm => (h.methods m hm).name.1.no_colon) h.no_colon
  obtain ⟨l, hl, hlS, htns⟩ := described_schemas hd
  rw [h.schema.1] at hlS
  cases hlS with
  | @cons w _ _ _ hw hnil =>
  cases hnil
  obtain ⟨c1, c2, c3⟩ := h.code (digest := digest) h10
  obtain ⟨address, hadr, hloc⟩ := path_two h5
  have hadr : addressOf port = some a.text := by
    unfold addressOf
    rw [hadr]
    show readStr address py"location" = _
    rw [readStr_optStr hloc, h.location.1]
  have hports : portsOf d = [(service, port)] := by
    unfold portsOf
    rw [readList_of h1]
    simp [readList_of h3]
  have hport : portCode digest ok server s.version d service port = .ok (some (codePort digest server s g a)) := by
    unfold portCode
    cases hdb : d.getA py"bindings" with
    | error e => rw [hdb] at h6; cases h6
    | ok bs =>
    cases hpb : port.getA py"binding" with
    | error e => rw [hdb, hpb] at h6; cases h6
    | ok b =>
    rw [hdb, hpb] at h6
    have h6 : getByName bs b = .ok binding := h6
    show (getByName bs b >>= _) = _
    rw [h6]
    obtain ⟨sb, hsb, htr⟩ := path_two h8
    show (if (readChild binding py"binding").bind (readStr · py"transport") = some nsSoapHttp then _ else _) = _
    rw [if_pos (by rw [hsb]; exact readStr_of htr)]
    simp only [readList_of h9, c2, hadr, hl, mapE, stubCode, c3, regexComment, readList_of h3, List.head?, onUrl,
      Option.bind, urlTemplate_eq ok a h.location.2.1, schemaVarOf, schema_target hw, readStr_of h4, htns,
      (C90_location ok a h.location.2.1).1, (C90_location ok a h.location.2.1).2.1, urlparse_eq ok a h.location.2.1, c1]
    cases server <;> rfl
  unfold wsdlToPy
  rw [htns, hl, hports]
  have hre : reorderDescribed ([w].map readSchema) = [schemaOf g] := by
    rw [show [w].map readSchema = [schemaOf g] by rw [List.map_singleton, readSchema_same hw, read_schema]]
    have hi : (schemaOf g).imports = [] := by simp [schemaOf, h.schema.2.alone.1]
    rfl
  simp only [hre, mapE, schemaToPy_code digest n h.schema.2.schemaOk, hport]
  rfl

end

end Soapfish
