import Verif.WsdlLookup
import Verif.Props.Generate
/-
Properties of generated WSDL documents: C61, C81, C82, C83.
-/
set_option maxRecDepth 8000
namespace Soapfish

/-! ### The whole document -/

theorem toXml_definitions (v : Version) (D : Nat) (s : WService) :
    toXml (specTable v) D (definitionsOf v s) py"definitions" (some nsWsdl) true =
      (renderCls (specTable v) D wDefinitions (definitionsOf v s) (some nsWsdl) true >>= fun o =>
        .ok (mkElem (QName.mk' (some nsWsdl) py"definitions") o none)) := by
  unfold definitionsOf definitionsV
  cases v <;> rfl

/-- **C81 (the document).** A service gives exactly the document of the specification, or an exception. -/
theorem C81_document (D : Nat) (s : WService) (x : Xml) :
    generateWsdl (D + 12) s = .ok x ↔
      (WsdlBuildable s ∧ s.schemas ≠ [] ∧ WsdlWritable s) ∧ x = wsdlDocument s := by
  have key : Gives (fun _ => True) (generateWsdl (D + 12) s) (WsdlBuildable s ∧ s.schemas ≠ [] ∧ WsdlWritable s)
      (wsdlDocument s) := by
    unfold generateWsdl
    refine ((build_definitions s.version D s).mono fun _ _ => trivial).bind fun hb => ?_
    have hf : ∀ {α : Type} (k : Except Exn α) (P : Prop) (a : α), Gives (fun _ => True) k P a →
        Gives (fun _ => True) (firstSchema s >>= fun _ => k) (s.schemas ≠ [] ∧ P) a := by
      intro α k P a h
      unfold firstSchema
      cases s.schemas with
      | nil => exact ⟨fun h => absurd rfl h.1, fun _ => ⟨_, trivial, rfl⟩⟩
      | cons g gs => exact h.congr (by simp)
    refine hf _ _ _ ?_
    have := ((render_definitions s.version (D + 2) s hb).andOk fun o =>
      mkElem (QName.mk' (some nsWsdl) py"definitions") o none).mono (E' := fun _ => True) fun _ _ => trivial
    rw [toXml_definitions]
    exact this
  exact generate_error key

/-- **C81 (exceptions).** Which exception a service gives: the description is built first, with ValueError, IndexError or
AttributeError if that fails; a service without schemas then gives IndexError; text that cannot be written, and a missing
location, give ValueError. -/
theorem C81_exceptions (D : Nat) (s : WService) :
    (¬ WsdlBuildable s → ∃ e, (e = .valueError ∨ e = .indexError ∨ e = .attributeError) ∧
      generateWsdl (D + 12) s = .error e) ∧
    (WsdlBuildable s → s.schemas = [] → generateWsdl (D + 12) s = .error .indexError) ∧
    (WsdlBuildable s → s.schemas ≠ [] → ¬ WsdlWritable s → generateWsdl (D + 12) s = .error .valueError) := by
  refine ⟨fun hb => ?_, fun hb hs => ?_, fun hb hs hw => ?_⟩
  · obtain ⟨e, he, h⟩ := (build_definitions s.version D s).2 hb
    refine ⟨e, he, ?_⟩
    unfold generateWsdl
    rw [h]; rfl
  · unfold generateWsdl
    rw [(build_definitions s.version D s).1 hb]
    unfold firstSchema
    rw [hs]; rfl
  · unfold generateWsdl
    rw [(build_definitions s.version D s).1 hb]
    unfold firstSchema
    obtain ⟨e, rfl, h⟩ := (render_definitions s.version (D + 2) s hb).2 hw
    cases hg : s.schemas with
    | nil => exact absurd hg hs
    | cons g gs =>
      show toXml (specTable s.version) (D + 12) (definitionsOf s.version s) py"definitions" (some nsWsdl) true = _
      rw [toXml_definitions, h]; rfl

/-! ### Reading the document back -/

/-- **C82 (schemas).** A generated XSD document, serialised and read back, is read as the description it was made
from. -/
theorem C82_schema (v : Version) (D : Nat) (s : GSchema) (x x' : Xml) (h : generateSchema v (D + 12) s = .ok x)
    (hb : Back x x') :
    ∃ d d', generateXsdspec v (D + 12) s = .ok d ∧ parseCls (specTable v) (D + 12) (D + 12) xSchema x' = .ok d' ∧
      d'.Same d := by
  obtain ⟨⟨hbu, hw⟩, rfl⟩ := (C79_document v D s x).1 h
  have hd := (build_schema v D s).1 hbu
  unfold generateSchema at h
  rw [hd] at h
  obtain ⟨d', h1, h2⟩ := C25_roundtrip (specTable v) (spec_sane v) (D + 12) (D + 12) xSchema _ _ (sv_schema v D s) _ _ _ _ _ h hb
  exact ⟨_, d', hd, h1, h2⟩

/-- **C82 (services).** A generated WSDL document, serialised and read back, is read as the description it was made
from. -/
theorem C82_service (D : Nat) (s : WService) (x x' : Xml) (h : generateWsdl (D + 12) s = .ok x) (hb : Back x x') :
    ∃ d d', generateDefinitions s.version (D + 12) s = .ok d ∧
      parseCls (specTable s.version) (D + 12) (D + 12) wDefinitions x' = .ok d' ∧ d'.Same d := by
  obtain ⟨⟨hbu, hne, hw⟩, _⟩ := (C81_document D s x).1 h
  have hd := (build_definitions s.version D s).1 hbu
  unfold generateWsdl at h
  rw [hd] at h
  have h : toXml (specTable s.version) (D + 12) (definitionsOf s.version s) py"definitions" (some nsWsdl) true = .ok x := by
    unfold firstSchema at h
    cases hs : s.schemas with
    | nil => exact absurd hs hne
    | cons g gs => rw [hs] at h; exact h
  have hsv := sv_definitions s.version D s fun m hm => (hbu.2 m hm).2.2
  obtain ⟨fs, y, he⟩ : ∃ fs y, definitionsOf s.version s = .inst wDefinitions fs y := by
    unfold definitionsOf definitionsV
    cases s.version <;> exact ⟨_, _, rfl⟩
  rw [he] at h hsv
  obtain ⟨d', h1, h2⟩ := C25_roundtrip (specTable s.version) (spec_sane s.version) (D + 12) (D + 12) wDefinitions _ _ hsv
    _ _ _ _ _ h hb
  exact ⟨_, d', hd, h1, by rw [he]; exact h2⟩

/-! ### C61 -/

theorem C61_lookup (v : Version) (s : WService) (d : Val) (hd : d.Same (definitionsOf v s)) (hbu : WsdlBuildable s)
    (hn : (s.methods.map (·.operationName)).Nodup) (hc : ∀ m ∈ s.methods, ':' ∉ m.operationName) (hs : ':' ∉ s.name) :
    ∃ service port binding portType operations,
      HasItems d py"services" [service] ∧ service.attr py"name" = some (.atom (.str s.name)) ∧
      HasItems service py"ports" [port] ∧ port.attr py"name" = some (.atom (.str (s.name ++ py"Port"))) ∧
      port.path [py"address", py"location"] = some (optStr s.location) ∧
      (do getByName (← d.getA py"bindings") (← port.getA py"binding")) = .ok binding ∧
      (do getByName (← d.getA py"portTypes") (← binding.getA py"type")) = .ok portType ∧
      binding.path [py"binding", py"transport"] = some (.atom (.str nsSoapHttp)) ∧
      HasItems binding py"operations" operations ∧ All2 (DescribesMethod d binding) s.methods operations := by
  -- the service and its port
  obtain ⟨services, hsi, hss⟩ := attr_items hd (definitionsV_services v _ _ _ _ _ _)
  cases hss with
  | @cons service _ _ _ hservice hss =>
  cases hss
  obtain ⟨ports, hpi, hps⟩ := attr_items hservice (serviceV_ports v _ _)
  cases hps with
  | @cons port _ _ _ hport hps =>
  cases hps
  obtain ⟨address, had, hadS⟩ := same_attr hport (n := py"address") (u := addressV s.location) rfl
  have hloc : address.attr py"location" = some (optStr s.location) := by
    cases hl : s.location with
    | none => rw [hl] at hadS; exact attr_str hadS rfl
    | some l => rw [hl] at hadS; exact attr_str hadS rfl
  -- port to binding
  obtain ⟨bindings, hbi, hbS⟩ := same_attr hd (definitionsV_bindings v _ _ _ _ _ _)
  have hcb : ':' ∉ s.name ++ py"Binding" := by simp [hs]
  have hcp : ':' ∉ s.name ++ py"PortType" := by simp [hs]
  obtain ⟨binding, hb1, hb2⟩ := getByName_list (fun _ : Unit => bindingOf v s) (fun _ => s.name ++ py"Binding") [()]
    (by simp) (fun _ _ => bindingV_name v _ _ _) hbS () (List.mem_singleton_self _) (py"tns" ++ ':' :: (s.name ++ py"Binding"))
    (lastPart_prefix _ hcb)
  have hpb : port.attr py"binding" = some (.atom (.str (py"tns" ++ ':' :: (s.name ++ py"Binding")))) := attr_str hport rfl
  -- binding to port type
  obtain ⟨portTypes, hpti, hptS⟩ := same_attr hd (definitionsV_portTypes v _ _ _ _ _ _)
  obtain ⟨portType, hp1, hp2⟩ := getByName_list (fun _ : Unit => portTypeOf v s) (fun _ => s.name ++ py"PortType") [()]
    (by simp) (fun _ _ => portTypeV_name v _ _) hptS () (List.mem_singleton_self _)
    (py"tns" ++ ':' :: (s.name ++ py"PortType")) (lastPart_prefix _ hcp)
  have hbt : binding.attr py"type" = some (.atom (.str (py"tns" ++ ':' :: (s.name ++ py"PortType")))) :=
    attr_str hb2 (bindingV_type v _ _ _)
  have hpt : (do getByName (← d.getA py"portTypes") (← binding.getA py"type")) = .ok portType := by
    rw [getA_iff.2 hpti, getA_iff.2 hbt]; exact hp1
  obtain ⟨operations, hoi, hoS⟩ := attr_items hb2 (bindingV_operations v _ _ _)
  refine ⟨service, port, binding, portType, operations, hsi, attr_str hservice (serviceV_name v _ _), hpi,
    attr_str hport rfl, ?_, ?_, hpt, ?_, hoi, ?_⟩
  · show (port.attr py"address").bind _ = _
    rw [had]
    show (address.attr py"location").bind _ = _
    rw [hloc]; rfl
  · rw [getA_iff.2 hbi, getA_iff.2 hpb]; exact hb1
  · obtain ⟨sb, hsb, hsbS⟩ := same_attr hb2 (bindingV_binding v _ _ _)
    show (binding.attr py"binding").bind _ = _
    rw [hsb]
    show (sb.attr py"transport").bind _ = _
    rw [attr_str hsbS rfl]; rfl
  -- operations
  obtain ⟨ptOps, hpo, hpoS⟩ := same_attr hp2 (portTypeV_operations v _ _)
  obtain ⟨messages, hmi, hmS⟩ := same_attr hd (definitionsV_messages v _ _ _ _ _ _)
  rw [message_pairs] at hmS
  have hops : ∀ (l : List WMethod), (∀ m ∈ l, m ∈ s.methods) → ∀ os, All2 Val.Same os (l.map (bindingOperationOf v)) →
      All2 (DescribesMethod d binding) l os := by
    intro l
    induction l with
    | nil => intro _ os h; cases h; exact .nil
    | cons m l ih =>
      intro hl os h
      cases h with
      | @cons o _ os _ ho h =>
      refine .cons ?_ (ih (fun k hk => hl k (List.mem_cons_of_mem _ hk)) os h)
      have hm := hl m (List.mem_cons_self ..)
      have hname : o.attr py"name" = some (.atom (.str m.operationName)) := attr_str ho (operationV_name v _ _ _ _)
      obtain ⟨so, hso, hsoS⟩ := same_attr ho (operationV_soap v _ _ _ _)
      obtain ⟨pto, hpto, hptoS⟩ := getByName_list (portOperationOf v) (·.operationName) s.methods hn
        (fun m _ => operationV_name v _ _ _ _) hpoS m hm m.operationName (lastPart_plain (hc m hm))
      have finds : ∀ (x name : Str) (p : WPart) (c : ClsId),
          (portOperationOf v m).attr x = some (flowV c (some (py"tns" ++ ':' :: name)) Val.none) → ':' ∉ name →
          (name, p) ∈ messagePairs s.methods → PartBuilds p → FindsMessage d binding o x name p := by
        intro x name p c hx hcn hmem hp
        obtain ⟨f, hf, hfS⟩ := same_attr hptoS hx
        have hfm : f.attr py"message" = some (.atom (.str (py"tns" ++ ':' :: name))) := attr_str hfS rfl
        have hfn : f.isNone = false := by
          cases f with
          | inst => rfl
          | _ => cases hfm
        obtain ⟨msg, hm1, hm2⟩ := getByName_list (fun q : Str × WPart => messageV v q.1 (partOf q.2)) (·.1)
          (messagePairs s.methods) (messagePairs_nodup _ hn) (fun q _ => messageV_name v _ _) hmS (name, p) hmem
          (py"tns" ++ ':' :: name) (lastPart_prefix _ hcn)
        refine ⟨msg, ?_, (carries_of_same v hm2 hp).1, (carries_of_same v hm2 hp).2⟩
        unfold getMessageObject
        rw [getA_iff.2 hpti, getA_iff.2 hbt]
        simp only [Except_ok_bind]
        rw [hp1]
        simp only [Except_ok_bind]
        rw [getA_iff.2 hpo, getA_iff.2 hname]
        simp only [Except_ok_bind]
        rw [hpto]
        simp only [Except_ok_bind]
        rw [getA_iff.2 hf]
        simp only [hfn, Bool.false_eq_true, if_false]
        rw [getA_iff.2 hmi, getA_iff.2 hfm]
        exact hm1
      have headers : ∀ (x : Str) (c : ClsId), (bindingOperationOf v m).attr x = some (flowV c none soapBodyV) →
          getMessageHeader d o x = .ok (.list false []) := by
        intro x c hx
        obtain ⟨f, hf, hfS⟩ := same_attr ho hx
        obtain ⟨is, ⟨t, hi⟩, his⟩ := attr_items hfS (n := py"headers") (t := true) (js := []) rfl
        cases his
        have hfn : f.isNone = false := by
          cases f with
          | inst => rfl
          | _ => cases hi
        unfold getMessageHeader
        rw [getA_iff.2 hf]
        simp only [hfn, Bool.false_eq_true, if_false]
        rw [getA_iff.2 hi]
        rfl
      have hpair : ∀ q ∈ [(m.operationName ++ py"Input", m.input), (m.operationName ++ py"Output", m.output)],
          q ∈ messagePairs s.methods := fun q hq => List.mem_flatMap.2 ⟨m, hm, hq⟩
      refine ⟨hname, ?_, ?_, ?_, ?_, headers _ wInput (operationV_input v _ _ _ _), headers _ wOutput (operationV_output v _ _ _ _)⟩
      · show (o.attr py"operation").bind _ = _
        rw [hso]
        show (so.attr py"soapAction").bind _ = _
        have : so.attr py"soapAction" = some (optStr m.soapAction) := by
          have := soapOperationV_action v m.soapAction m.style
          cases hl : m.soapAction <;> rw [hl] at this hsoS <;> exact attr_str hsoS this
        rw [this]; rfl
      · show (o.attr py"operation").bind _ = _
        rw [hso]
        show (so.attr py"style").bind _ = _
        have : so.attr py"style" = some (optStr m.style) := by
          have := soapOperationV_style v m.soapAction m.style
          cases hl : m.style <;> rw [hl] at this hsoS <;> exact attr_str hsoS this
        rw [this]; rfl
      · exact finds _ _ _ wInput (operationV_input v _ _ _ _) (by simp [hc m hm]) (hpair _ (List.mem_cons_self ..)) (hbu.2 m hm).1
      · exact finds _ _ _ wOutput (operationV_output v _ _ _ _) (by simp [hc m hm])
          (hpair _ (List.mem_cons_of_mem _ (List.mem_singleton_self _))) (hbu.2 m hm).2.1
  exact hops s.methods (fun _ h => h) operations hoS

/-- **C61.** In every generated WSDL document, serialised and read back by the library, each reference resolves to the
item generated for it: the port of the one service to the binding, the binding to the port type, and for each method
there is exactly one operation in the binding, with its SOAP action and style, whose input and output messages carry the
method's input and output. -/
theorem C61_resolves (D : Nat) (s : WService) (x x' : Xml) (h : generateWsdl (D + 12) s = .ok x) (hb : Back x x')
    (hn : (s.methods.map (·.operationName)).Nodup) (hc : ∀ m ∈ s.methods, ':' ∉ m.operationName) (hs : ':' ∉ s.name) :
    ∃ d service port binding portType operations,
      parseCls (specTable s.version) (D + 12) (D + 12) wDefinitions x' = .ok d ∧
      HasItems d py"services" [service] ∧ service.attr py"name" = some (.atom (.str s.name)) ∧
      HasItems service py"ports" [port] ∧ port.attr py"name" = some (.atom (.str (s.name ++ py"Port"))) ∧
      port.path [py"address", py"location"] = some (optStr s.location) ∧
      (do getByName (← d.getA py"bindings") (← port.getA py"binding")) = .ok binding ∧
      (do getByName (← d.getA py"portTypes") (← binding.getA py"type")) = .ok portType ∧
      binding.path [py"binding", py"transport"] = some (.atom (.str nsSoapHttp)) ∧
      HasItems binding py"operations" operations ∧ All2 (DescribesMethod d binding) s.methods operations := by
  have hbu := ((C81_document D s x).1 h).1.1
  obtain ⟨d, d', h1, h2, h3⟩ := C82_service D s x x' h hb
  rw [(build_definitions s.version D s).1 hbu] at h1
  injection h1 with h1; subst h1
  obtain ⟨service, port, binding, portType, operations, hrest⟩ := C61_lookup s.version s d' h3 hbu hn hc hs
  exact ⟨d', service, port, binding, portType, operations, h2, hrest⟩

/-! ### C83 -/

theorem isWsdl_node (n : Str) (a : List (Str × Str)) (ks : List Xml) : (wsdlNode n a ks).IsWsdl n := ⟨_, _, _, rfl⟩

theorem not_isWsdl_soap (v : Version) (n : Str) (a : List (Str × Str)) (m : Str) : ¬ (soapNode v n a).IsWsdl m := by
  rintro ⟨_, _, _, h⟩
  injection h with h
  injection h with h
  injection h with h
  cases v <;> revert h <;> decide

theorem not_isWsdl_xsd (n : Str) (a : List (Str × Str)) (ks : List Xml) (m : Str) : ¬ (xsdNode n a ks).IsWsdl m := by
  rintro ⟨_, _, _, h⟩
  injection h with h
  injection h with h
  injection h with h
  revert h; decide

/-- A WSDL element followed by another one breaks the order. -/
theorem not_extensionsFirst {x : Xml} {pre mid post : List Xml} {k e : Xml} (h : x.children = pre ++ k :: mid ++ e :: post)
    (hk : ∃ n, k.IsWsdl n) (he : ∀ n, ¬ e.IsWsdl n) : ¬ ExtensionsFirst x := by
  rintro ⟨ext, own, hx, h1, h2⟩
  rw [h] at hx
  obtain ⟨n, hk⟩ := hk
  rw [List.append_assoc, List.append_eq_append_iff] at hx
  rcases hx with ⟨a, rfl, hx⟩ | ⟨c, rfl, rfl⟩
  · cases a with
    | nil =>
      obtain ⟨n, hn⟩ := h2 e (by rw [List.nil_append] at hx; rw [← hx]; simp)
      exact he n hn
    | cons b a =>
      simp only [List.cons_append, List.cons.injEq] at hx
      obtain ⟨rfl, _⟩ := hx
      exact h1 k (by simp) n hk
  · obtain ⟨n, hn⟩ := h2 e (by simp)
    exact he n hn

theorem extensionsFirst_own {x : Xml} (h : ∀ k ∈ x.children, ∃ n, k.IsWsdl n) : ExtensionsFirst x :=
  ⟨[], x.children, rfl, nofun, h⟩

theorem extensionsFirst_ext {x : Xml} (h : ∀ k ∈ x.children, ∀ n, ¬ k.IsWsdl n) : ExtensionsFirst x :=
  ⟨x.children, [], by simp, h, nofun⟩

/-- No WSDL element is inside. -/
def NoWsdl (p : Xml) : Prop := ∀ k, Within p k → ∀ n, ¬ k.IsWsdl n

theorem NoWsdl.node {n : Str} {a : List (Str × Str)} {ks : List Xml} (h : ∀ k ∈ ks, NoWsdl k) : NoWsdl (xsdNode n a ks) := by
  intro k hk
  rcases hk.cases_head with rfl | ⟨c, hc, hck⟩
  · exact not_isWsdl_xsd _ _ _
  · exact h c hc k hck

theorem NoWsdl.restriction (b as fs) : NoWsdl (restrictionDoc b as fs) := by
  refine .node fun k hk => ?_
  rcases List.mem_append.1 hk with hk | hk <;> obtain ⟨_, _, rfl⟩ := List.mem_map.1 hk <;> exact .node nofun

theorem NoWsdl.element (e : GElem) : NoWsdl (elementDoc e) := by
  refine .node fun k hk => ?_
  split at hk
  · cases hk
  · rw [List.mem_singleton] at hk; subst hk
    refine .node fun k hk => ?_
    rw [List.mem_singleton] at hk; subst hk
    exact .restriction _ _ _

theorem NoWsdl.complex (c : GComplex) (named : Bool) : NoWsdl (complexDoc c named) := by
  refine .node fun k hk => ?_
  obtain ⟨i, _, rfl⟩ := List.mem_map.1 hk
  refine .node fun k hk => ?_
  obtain ⟨e, _, rfl⟩ := List.mem_map.1 hk
  exact .element e

theorem NoWsdl.document (g : GSchema) : NoWsdl (document g) := by
  refine .node fun k hk => ?_
  simp only [List.mem_append, List.mem_map] at hk
  rcases hk with (((⟨i, _, rfl⟩ | ⟨i, _, rfl⟩) | ⟨i, _, rfl⟩) | ⟨i, _, rfl⟩) | ⟨i, _, rfl⟩
  · exact .node nofun
  · exact .node nofun
  · refine .node fun k hk => ?_
    rw [List.mem_singleton] at hk; subst hk
    exact .restriction _ _ _
  · exact .complex _ _
  · unfold topDoc
    split
    · exact .node nofun
    · refine .node fun k hk => ?_
      rw [List.mem_singleton] at hk; subst hk
      exact .complex _ _
    · intro k hk n
      rcases hk.cases_head with rfl | ⟨c, hc, _⟩
      · rintro ⟨_, _, _, h⟩; cases h
      · cases hc

/-- **C83 (misplaced elements).** The document has one binding.  Its soap:binding comes after the operations, contrary to
the WSDL schema unless there are none, and in each operation soap:operation comes after input and output. -/
theorem C83_misplaced (D : Nat) (s : WService) (x : Xml) (h : generateWsdl (D + 12) s = .ok x) :
    ∃ pre b post, x.children = pre ++ b :: post ∧ b.IsWsdl py"binding" ∧
      (∀ k ∈ pre ++ post, ¬ k.IsWsdl py"binding") ∧ (ExtensionsFirst b ↔ s.methods = []) ∧
      ∀ o ∈ b.children, o.IsWsdl py"operation" → ¬ ExtensionsFirst o := by
  obtain ⟨_, rfl⟩ := (C81_document D s x).1 h
  refine ⟨[wsdlNode py"types" [] (s.schemas.map document)] ++ s.methods.flatMap messagesDoc ++ [portTypeDoc s],
    bindingDoc s.version s, [serviceDoc s.version s], ?_, ⟨_, _, _, rfl⟩, ?_, ?_, ?_⟩
  · show _ ++ _ ++ _ ++ _ ++ _ = _
    simp
  · intro k hk
    have hne : ∀ n a ks, n ≠ py"binding" → ¬ (wsdlNode n a ks).IsWsdl py"binding" := by
      rintro n a ks hn ⟨_, _, _, h⟩
      injection h with h
      injection h with _ h
      exact hn h
    simp only [List.mem_append, List.mem_singleton, List.mem_flatMap] at hk
    rcases hk with ((rfl | ⟨m, _, hk⟩) | rfl) | rfl
    · exact hne _ _ _ (by decide)
    · simp only [messagesDoc, List.mem_cons, List.not_mem_nil, or_false] at hk
      rcases hk with rfl | rfl <;> exact hne _ _ _ (by decide)
    · exact hne _ _ _ (by decide)
    · exact hne _ _ _ (by decide)
  · constructor
    · intro he
      cases hm : s.methods with
      | nil => rfl
      | cons m ms =>
        refine absurd he (not_extensionsFirst (pre := []) (k := bindingOperationDoc s.version m)
          (mid := ms.map (bindingOperationDoc s.version)) (post := []) ?_ ⟨_, _, _, _, rfl⟩
          (not_isWsdl_soap s.version py"binding" [(py"style", py"document"), (py"transport", nsSoapHttp)]))
        show List.map _ _ ++ _ = _
        rw [hm]; rfl
    · intro hm
      refine extensionsFirst_ext ?_
      show ∀ k ∈ List.map _ _ ++ _, _
      rw [hm]
      intro k hk n
      rw [List.map_nil, List.nil_append, List.mem_singleton] at hk
      subst hk
      exact not_isWsdl_soap _ _ _ _
  · intro o ho hw
    have ho : o ∈ s.methods.map (bindingOperationDoc s.version) ++ [_] := ho
    rcases List.mem_append.1 ho with ho | ho
    · obtain ⟨m, _, rfl⟩ := List.mem_map.1 ho
      exact not_extensionsFirst (pre := []) (mid := [_]) (post := []) rfl ⟨_, isWsdl_node _ _ _⟩
        (not_isWsdl_soap s.version py"operation" _)
    · rw [List.mem_singleton] at ho
      subst ho
      exact absurd hw (not_isWsdl_soap _ _ _ _)

/-- **C83 (elsewhere).** Everything outside the binding is in the order of the WSDL schema: the definitions themselves,
and each of their other children with all WSDL elements inside them. -/
theorem C83_elsewhere (D : Nat) (s : WService) (x : Xml) (h : generateWsdl (D + 12) s = .ok x) :
    ExtensionsFirst x ∧ ∀ p ∈ x.children, ¬ p.IsWsdl py"binding" → ∀ k, Within p k → (∃ n, k.IsWsdl n) → ExtensionsFirst k := by
  obtain ⟨_, rfl⟩ := (C81_document D s x).1 h
  -- elements all of whose descendants are harmless
  let Fine (p : Xml) : Prop := ∀ k, Within p k → (∃ n, k.IsWsdl n) → ExtensionsFirst k
  have fine_own : ∀ n a ks, (∀ k ∈ ks, (∃ n, k.IsWsdl n) ∧ Fine k) → Fine (wsdlNode n a ks) := by
    intro n a ks hks k hk hn
    rcases hk.cases_head with rfl | ⟨c, hc, hck⟩
    · exact extensionsFirst_own fun k hk => (hks k hk).1
    · exact (hks c hc).2 k hck hn
  have fine_ext : ∀ n a ks, (∀ k ∈ ks, (∀ n, ¬ k.IsWsdl n) ∧ Fine k) → Fine (wsdlNode n a ks) := by
    intro n a ks hks k hk hn
    rcases hk.cases_head with rfl | ⟨c, hc, hck⟩
    · exact extensionsFirst_ext fun k hk => (hks k hk).1
    · exact (hks c hc).2 k hck hn
  have fine_leaf : ∀ n a, Fine (wsdlNode n a []) := fun n a => fine_own n a [] (fun k hk => by cases hk)
  have fine_soap : ∀ v n a, Fine (soapNode v n a) := by
    intro v n a k hk hn
    rcases hk.cases_head with rfl | ⟨c, hc, _⟩
    · obtain ⟨m, hm⟩ := hn; exact absurd hm (not_isWsdl_soap _ _ _ _)
    · cases hc
  have fine_message : ∀ n p, Fine (messageDoc n p) := by
    intro n p
    refine fine_own _ _ _ fun k hk => ?_
    rw [List.mem_singleton] at hk; subst hk
    exact ⟨⟨_, isWsdl_node _ _ _⟩, fine_leaf _ _⟩
  refine ⟨extensionsFirst_own fun k hk => ?_, fun p hp hnb => ?_⟩
  · have hk : k ∈ [_] ++ _ ++ [_] ++ [_] ++ [_] := hk
    simp only [List.mem_append, List.mem_singleton, List.mem_flatMap] at hk
    rcases hk with (((rfl | ⟨m, _, hk⟩) | rfl) | rfl) | rfl
    · exact ⟨_, isWsdl_node _ _ _⟩
    · simp only [messagesDoc, List.mem_cons, List.not_mem_nil, or_false] at hk
      rcases hk with rfl | rfl <;> exact ⟨_, isWsdl_node _ _ _⟩
    · exact ⟨_, isWsdl_node _ _ _⟩
    · exact ⟨_, isWsdl_node _ _ _⟩
    · exact ⟨_, isWsdl_node _ _ _⟩
  · have hp : p ∈ [_] ++ _ ++ [_] ++ [_] ++ [_] := hp
    simp only [List.mem_append, List.mem_singleton, List.mem_flatMap] at hp
    rcases hp with (((rfl | ⟨m, _, hp⟩) | rfl) | rfl) | rfl
    · refine fine_ext _ _ _ fun k hk => ?_
      obtain ⟨g, _, rfl⟩ := List.mem_map.1 hk
      exact ⟨not_isWsdl_xsd _ _ _, fun k hk hn => absurd hn.choose_spec (NoWsdl.document g k hk _)⟩
    · simp only [messagesDoc, List.mem_cons, List.not_mem_nil, or_false] at hp
      rcases hp with rfl | rfl <;> exact fine_message _ _
    · refine fine_own _ _ _ fun k hk => ?_
      obtain ⟨m, _, rfl⟩ := List.mem_map.1 hk
      refine ⟨⟨_, isWsdl_node _ _ _⟩, fine_own _ _ _ fun k hk => ?_⟩
      simp only [List.mem_cons, List.not_mem_nil, or_false] at hk
      rcases hk with rfl | rfl <;> exact ⟨⟨_, isWsdl_node _ _ _⟩, fine_leaf _ _⟩
    · exact absurd (isWsdl_node _ _ _) hnb
    · refine fine_own _ _ _ fun k hk => ?_
      rw [List.mem_singleton] at hk; subst hk
      refine ⟨⟨_, isWsdl_node _ _ _⟩, fine_ext _ _ _ fun k hk => ?_⟩
      rw [List.mem_singleton] at hk; subst hk
      exact ⟨not_isWsdl_soap _ _ _, fine_soap _ _ _⟩

/-! ### Examples -/

namespace Ex

def place : WMethod := ⟨py"place", some py"urn:place", .element py"item", .element py"part", some py"document"⟩
def cancel : WMethod := ⟨py"cancel", none, .cls py"Item", .cls py"Part", some py"rpc"⟩

def orderService (methods : List WMethod) : WService :=
  { name := py"Orders", targetNamespace := py"urn:o", location := some py"http://x/ws", schemas := [itemSchema],
    methods := methods }

example : generateWsdl 12 (orderService [place, cancel]) = .ok (wsdlDocument (orderService [place, cancel])) := by
  rfl

example : WsdlBuildable (orderService [place, cancel]) ∧
    ((orderService [place, cancel]).methods.map (·.operationName)).Nodup ∧
    (∀ m ∈ (orderService [place, cancel]).methods, ':' ∉ m.operationName) ∧ ':' ∉ (orderService [place, cancel]).name := by
  have h : generateWsdl (0 + 12) (orderService [place, cancel]) = .ok (wsdlDocument (orderService [place, cancel])) := by rfl
  exact ⟨((C81_document 0 _ _).1 h).1.1, by decide, by decide, by decide⟩

/-- A service without schemas, without location, with a method without output. -/
example : generateWsdl 12 { orderService [place] with schemas := [] } = .error .indexError := by rfl
example : generateWsdl 12 { orderService [place] with location := none } = .error .valueError := by rfl
example : generateWsdl 12 (orderService [{ place with output := .none }]) = .error .attributeError := by rfl

/-- Of two methods of the same name, the second gets the messages of the first. -/
theorem C61_duplicates : ∃ (d binding first second message : Val),
    generateDefinitions .soap11 12 (orderService [place, { place with input := .element py"part" }]) = .ok d ∧
    HasItems d py"bindings" [binding] ∧ HasItems binding py"operations" [first, second] ∧
    getMessageObject d binding second py"input" = .ok message ∧ Carries message (.element py"item") ∧
    ¬ Carries message (.element py"part") := by
  refine ⟨_, _, _, _, _, rfl, ⟨_, rfl⟩, ⟨_, rfl⟩, rfl, ⟨_, ⟨_, rfl⟩, rfl, rfl, rfl⟩, ?_⟩
  rintro ⟨p, ⟨t, h⟩, _, h2, _⟩
  injection h with h
  injection h with _ h
  injection h with h
  subst h
  revert h2
  exact fun h => by injection h with h; injection h with h; injection h with h; revert h; decide

/-- An operation with a colon in its name is not found. -/
theorem C61_colon : ∃ (d binding operation : Val),
    generateDefinitions .soap11 12 (orderService [{ place with operationName := py"a:f" }]) = .ok d ∧
    HasItems d py"bindings" [binding] ∧ HasItems binding py"operations" [operation] ∧
    getMessageObject d binding operation py"input" = .error .valueError :=
  ⟨_, _, _, rfl, ⟨_, rfl⟩, ⟨_, rfl⟩, rfl⟩

end Ex

end Soapfish
