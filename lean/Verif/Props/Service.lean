import Verif.ServiceExec
import Verif.Props.RoundTripCode
/-
Properties of the code generated from WSDL documents: C91.
-/
set_option maxRecDepth 8000
namespace Soapfish

/-! ### The SOAP version -/

theorem all2_any {α β : Type} {R : α → β → Prop} {as : List α} {bs : List β} {f : α → Bool} {g : β → Bool} (h : All2 R as bs)
    (hf : ∀ a b, R a b → g b = f a) : bs.any g = as.any f := by
  induction h with
  | nil => rfl
  | cons h1 _ ih => simp only [List.any_cons, hf _ _ h1, ih]

theorem hasTag_back {q : QName} {x y : Xml} (h : Back x y) : hasTag q y = hasTag q x := by
  cases h <;> rfl

theorem kids_back {x y : Xml} (h : Back x y) : All2 Back (kidsOf x) (kidsOf y) := by
  cases h with
  | elem _ h => exact h
  | comment => exact .nil
  | pi => exact .nil

theorem version_back {x y : Xml} (h : Back x y) : versionFromXml y = versionFromXml x := by
  unfold versionFromXml
  rw [all2_any (kids_back h) fun a b hab => ?_]
  rw [hasTag_back hab, all2_any (kids_back hab) fun a b hab => hasTag_back hab]

theorem version_document (s : WService) : versionFromXml (wsdlDocument s) = s.version := by
  have h1 : (s.methods.flatMap messagesDoc).any (fun b => hasTag ⟨some nsWsdl, py"binding"⟩ b &&
      (kidsOf b).any (hasTag ⟨some Version.soap12.bindingNs, py"binding"⟩)) = false := by
    rw [List.any_eq_false]
    intro b hb
    obtain ⟨m, _, hb⟩ := List.mem_flatMap.1 hb
    simp only [messagesDoc, List.mem_cons, List.not_mem_nil, or_false] at hb
    rcases hb with rfl | rfl
    · simp [messageDoc, wsdlNode, hasTag]
    · simp [messageDoc, wsdlNode, hasTag]
  have h2 : ((s.methods.map (bindingOperationDoc s.version)).any
      (hasTag ⟨some Version.soap12.bindingNs, py"binding"⟩)) = false := by
    rw [List.any_eq_false]
    intro b hb
    obtain ⟨m, _, rfl⟩ := List.mem_map.1 hb
    simp [bindingOperationDoc, wsdlNode, hasTag]
  have h3 : versionFromXml (wsdlDocument s) =
      if hasTag ⟨some Version.soap12.bindingNs, py"binding"⟩
        (soapNode s.version py"binding" [(py"style", py"document"), (py"transport", nsSoapHttp)]) then .soap12 else .soap11 := by
    unfold versionFromXml wsdlDocument
    show (if (([wsdlNode py"types" [] (s.schemas.map document)] ++ s.methods.flatMap messagesDoc ++ [portTypeDoc s] ++
      [bindingDoc s.version s] ++ [serviceDoc s.version s]).any _) = true then _ else _) = _
    rw [List.any_append, List.any_append, List.any_append, List.any_append, h1]
    have e1 : ∀ f : Xml → Bool, f (wsdlNode py"types" [] (s.schemas.map document)) = false →
        [wsdlNode py"types" [] (s.schemas.map document)].any f = false := fun f h => by simp [h]
    rw [e1 _ (by simp [wsdlNode, hasTag])]
    have e2 : (kidsOf (bindingDoc s.version s)).any (hasTag ⟨some Version.soap12.bindingNs, py"binding"⟩) =
        hasTag ⟨some Version.soap12.bindingNs, py"binding"⟩
          (soapNode s.version py"binding" [(py"style", py"document"), (py"transport", nsSoapHttp)]) := by
      show ((s.methods.map (bindingOperationDoc s.version)) ++ [soapNode s.version py"binding" _]).any _ = _
      rw [List.any_append, h2]
      simp
    have e3 : hasTag ⟨some nsWsdl, py"binding"⟩ (bindingDoc s.version s) = true := rfl
    have e4 : hasTag ⟨some nsWsdl, py"binding"⟩ (portTypeDoc s) = false := rfl
    have e5 : hasTag ⟨some nsWsdl, py"binding"⟩ (serviceDoc s.version s) = false := rfl
    simp only [List.any_cons, List.any_nil, e2, e3, e4, e5, Bool.false_and, Bool.true_and, Bool.or_false, Bool.false_or]
  rw [h3]
  cases s.version <;> rfl

/-! ### C91 -/

section
variable {server : Bool} {limit : Nat} {s : WService} {g : GSchema} {a : WebAddress}

theorem moved_document (h : ServiceSurvives server limit s g a) {g' : GSchema} (hg : SchemaBack g g') :
    wsdlDocument (serviceObj server s g' a).wsdl = wsdlDocument (s.moved (s.name ++ py"Port") (templated a)) := by
  have hm : (serviceObj server s g' a).wsdl.methods =
      s.methods.map fun m => { m with style := some (m.style.getD py"document") } := by
    show (s.methods.map (methodObj server)).map (·.wsdl) = _
    rw [List.map_map]
    refine List.map_congr_left fun m hm => ?_
    obtain ⟨ac, hac, _⟩ := (h.methods m hm).soapAction
    show WMethod.mk _ _ _ _ _ = WMethod.mk _ _ _ _ _
    simp only [methodObj]
    rw [hac]; rfl
  have hsch : (serviceObj server s g' a).wsdl.schemas.map document = s.schemas.map document := by
    rw [h.schema.1]
    show [document g'] = [document g]
    rw [hg.doc h.schema.2.alone]
  unfold wsdlDocument portTypeDoc bindingDoc
  rw [hsch, hm]
  rfl

theorem moved_writable (h : ServiceSurvives server limit s g a) {g' : GSchema} (hg : SchemaBack g g') (hbu : WsdlBuildable s)
    (hw : WsdlWritable s) : WsdlBuildable (serviceObj server s g' a).wsdl ∧ WsdlWritable (serviceObj server s g' a).wsdl := by
  have hgs : g ∈ s.schemas := by rw [h.schema.1]; exact List.mem_singleton_self _
  have hmem : ∀ m' ∈ (serviceObj server s g' a).wsdl.methods, ∃ m ∈ s.methods, m' = (methodObj server m).wsdl := by
    intro m' hm'
    obtain ⟨o, ho, rfl⟩ := List.mem_map.1 hm'
    obtain ⟨m, hm, rfl⟩ := List.mem_map.1 ho
    exact ⟨m, hm, rfl⟩
  obtain ⟨w1, w2, ⟨l, hl, hlw⟩, w4, w5⟩ := hw
  have xml_app : ∀ {p q : Str}, XmlOk (p ++ q) ↔ XmlOk p ∧ XmlOk q := by
    intro p q
    unfold XmlOk
    constructor
    · exact fun h => ⟨fun c hc => h c (List.mem_append_left _ hc), fun c hc => h c (List.mem_append_right _ hc)⟩
    · rintro ⟨h1, h2⟩ c hc
      rcases List.mem_append.1 hc with h | h
      · exact h1 c h
      · exact h2 c h
  refine ⟨⟨fun x hx => ?_, fun m' hm' => ?_⟩, w1, ?_, ⟨templated a, rfl, ?_⟩, fun x hx => ?_, fun m' hm' => ?_⟩
  · rw [List.mem_singleton.1 hx]
    exact hg.buildable (hbu.1 g hgs)
  · obtain ⟨m, hm, rfl⟩ := hmem m' hm'
    obtain ⟨b1, b2, b3⟩ := hbu.2 m hm
    refine ⟨b1, b2, ?_⟩
    show some (m.style.getD py"document") ∈ _
    rcases style_cases b3 with h | h | h <;> rw [h] <;> decide
  · exact xml_app.2 ⟨w2, by unfold XmlOk; decide⟩
  · rw [h.location.1] at hl
    injection hl with hl
    subst hl
    unfold WebAddress.text WebAddress.rest at hlw
    simp only [xml_app] at hlw
    have key : ∀ c (o : Option Str), XmlOk (written c o) → XmlOk (written c (dropEmpty o)) := by
      intro c o ho
      cases o with
      | none => exact ho
      | some t => cases t with
        | nil => exact fun c hc => by cases hc
        | cons => exact ho
    unfold templated WebAddress.rest
    simp only [xml_app]
    exact ⟨by unfold XmlOk; decide, ⟨⟨hlw.2.1.1.1, key _ _ hlw.2.1.1.2⟩, key _ _ hlw.2.1.2⟩, key _ _ hlw.2.2⟩
  · rw [List.mem_singleton.1 hx]
    exact hg.writable (w4 g hgs)
  · obtain ⟨m, hm, rfl⟩ := hmem m' hm'
    obtain ⟨m1, m2, m3, m4⟩ := w5 m hm
    obtain ⟨ac, hac, _⟩ := (h.methods m hm).soapAction
    refine ⟨m1, fun b hb => ?_, m3, m4⟩
    have hb : some (m.soapAction.getD []) = some b := hb
    rw [hac] at hb
    exact m2 b (hac.trans hb)

/-- **C91 (round trip).** Take a service with one schema, generate its WSDL document, serialise it, and generate code from
what is read.  If service and schema survive, nothing fails: the SOAP version is detected, the code can be imported, and it
defines one service.  That service has the same WSDL document as the one at the start, except that 'Port' was added to its
name and that its location has placeholders for scheme and host. -/
theorem C91_roundtrip (D : Nat) (x x' : Xml) (digest : Str → Str) (ok : Str → Bool) (n : Nat)
    (h : generateWsdl (D + 12) s = .ok x) (hb : Back x x') (hs : ServiceSurvives server limit s g a)
    (hdig : (digest g.targetNamespace).length = 5) :
    ∃ d m G o, versionFromXml x' = s.version ∧
      parseCls (specTable s.version) (D + 12) (D + 12) wDefinitions x' = .ok d ∧
      wsdlToPy digest ok [some py"xsd"] (n + 1) server s.version d = .ok m ∧ execWsdl limit m = .ok (G, [o]) ∧
      generateWsdl (D + 12) o.service.wsdl =
        .ok (wsdlDocument (s.moved (s.name ++ py"Port") (py"${scheme}://${host}" ++ a.tidied.rest))) := by
  obtain ⟨⟨hbu, hne, hw⟩, hx⟩ := (C81_document D s x).1 h
  obtain ⟨d0, d, h1, h2, h3⟩ := C82_service D s x x' h hb
  rw [(build_definitions s.version D s).1 hbu] at h1
  injection h1 with h1; subst h1
  obtain ⟨G, g', hg, he⟩ := execWsdl_of hs hbu (digest := digest) hdig
  obtain ⟨hb', hw'⟩ := moved_writable hs hg hbu hw
  refine ⟨d, _, G, _, ?_, h2, wsdlToPy_of hs hbu digest ok n h3, he, ?_⟩
  · rw [version_back hb, hx, version_document]
  · refine (C81_document D _ _).2 ⟨⟨hb', ?_, hw'⟩, ?_⟩
    · show [g'] ≠ []
      simp
    · exact (moved_document hs hg).symm

/-- What one gets out of the code. -/
theorem C91_objects (D : Nat) (x x' : Xml) (digest : Str → Str) (ok : Str → Bool) (n : Nat)
    (h : generateWsdl (D + 12) s = .ok x) (hb : Back x x') (hs : ServiceSurvives server limit s g a)
    (hdig : (digest g.targetNamespace).length = 5) {d : Val} {m : PyWsdlModule} {G : Globals} {os : List PortObj}
    (hd : parseCls (specTable s.version) (D + 12) (D + 12) wDefinitions x' = .ok d)
    (hm : wsdlToPy digest ok [some py"xsd"] (n + 1) server s.version d = .ok m) (he : execWsdl limit m = .ok (G, os)) :
    ∃ g', os = [⟨serviceObj server s g' a, if server then none else some (stubObj s g' a)⟩] := by
  obtain ⟨⟨hbu, hne, hw⟩, hx⟩ := (C81_document D s x).1 h
  obtain ⟨d0, d', h1, h2, h3⟩ := C82_service D s x x' h hb
  rw [(build_definitions s.version D s).1 hbu] at h1
  injection h1 with h1; subst h1
  obtain rfl : d' = d := Except.ok.inj (h2.symm.trans hd)
  obtain ⟨G', g', hg, he'⟩ := execWsdl_of hs hbu (digest := digest) hdig
  rw [wsdlToPy_of hs hbu digest ok n h3] at hm
  obtain rfl := Except.ok.inj hm
  have := Except.ok.inj (he.symm.trans he')
  injection this with _ this
  exact ⟨g', this⟩

/-- **C91 (methods).** The service in the code has the methods of the service at the start, in order, with the same inputs,
outputs, SOAP actions and styles.  In server code each has a function of its own name, in client code none. -/
theorem C91_methods (D : Nat) (x x' : Xml) (digest : Str → Str) (ok : Str → Bool) (n : Nat)
    (h : generateWsdl (D + 12) s = .ok x) (hb : Back x x') (hs : ServiceSurvives server limit s g a)
    (hdig : (digest g.targetNamespace).length = 5) {d : Val} {m : PyWsdlModule} {G : Globals} {os : List PortObj}
    (hd : parseCls (specTable s.version) (D + 12) (D + 12) wDefinitions x' = .ok d)
    (hm : wsdlToPy digest ok [some py"xsd"] (n + 1) server s.version d = .ok m) (he : execWsdl limit m = .ok (G, os)) :
    ∃ o, os = [o] ∧ All2 (fun (m : WMethod) (k : MethodObj) => k.operationName = m.operationName ∧ k.input = m.input ∧
      k.output = m.output ∧ m.soapAction = some k.soapAction ∧ k.style = m.style.getD py"document" ∧
      k.inputHeader.isNone ∧ k.outputHeader.isNone ∧ k.inputPartName = py"body" ∧ k.outputPartName = py"body" ∧
      k.function = if server then some m.operationName else none) s.methods o.service.methods := by
  obtain ⟨g', rfl⟩ := C91_objects D x x' digest ok n h hb hs hdig hd hm he
  refine ⟨_, rfl, ?_⟩
  show All2 _ s.methods (s.methods.map (methodObj server))
  have key : ∀ l : List WMethod, (∀ m ∈ l, m ∈ s.methods) → All2 (fun (m : WMethod) (k : MethodObj) => k.operationName = m.operationName ∧ k.input = m.input ∧
      k.output = m.output ∧ m.soapAction = some k.soapAction ∧ k.style = m.style.getD py"document" ∧
      k.inputHeader.isNone ∧ k.outputHeader.isNone ∧ k.inputPartName = py"body" ∧ k.outputPartName = py"body" ∧
      k.function = if server then some m.operationName else none) l (l.map (methodObj server)) := by
    intro l
    induction l with
    | nil => intro _; exact .nil
    | cons m l ih =>
      intro hl
      refine .cons ?_ (ih fun k hk => hl k (List.mem_cons_of_mem _ hk))
      obtain ⟨ac, hac, _⟩ := (hs.methods m (hl m (List.mem_cons_self ..))).soapAction
      exact ⟨rfl, rfl, rfl, by rw [hac]; show _ = some (m.soapAction.getD []); rw [hac]; rfl, rfl, rfl, rfl, rfl, rfl, rfl⟩
  exact key s.methods fun _ h => h

theorem find_call (l : List WMethod) (n : Str) (hn : n ∈ l.map (·.operationName)) :
    ∃ c, (l.map fun m => (m.operationName, elementName m.input, m.operationName)).reverse.find? (fun c => c.1 = n) = some c ∧
      c.2.2 = n := by
  cases hf : (l.map fun m => (m.operationName, elementName m.input, m.operationName)).reverse.find? (fun c => c.1 = n) with
  | none =>
    obtain ⟨m, hm, rfl⟩ := List.mem_map.1 hn
    have := List.find?_eq_none.1 hf (m.operationName, elementName m.input, m.operationName)
      (List.mem_reverse.2 (List.mem_map.2 ⟨m, hm, rfl⟩))
    simp at this
  | some c =>
    refine ⟨c, rfl, ?_⟩
    have h1 := List.find?_some hf
    obtain ⟨m, _, rfl⟩ := List.mem_map.1 (List.mem_reverse.1 (List.mem_of_find?_eq_some hf))
    exact of_decide_eq_true h1

/-- **C91 (stub).** Client code defines a stub class for the service.  Its objects send to the address of the service at the
start, without parts that are only a delimiter, if there is no `$` in it.  Calling a method of the stub calls the operation
of that name, unless the name is one of four that every stub object has as attributes, or some operation is named `call`:
then it raises `TypeError`. -/
theorem C91_stub (D : Nat) (x x' : Xml) (digest : Str → Str) (ok : Str → Bool) (n : Nat)
    (h : generateWsdl (D + 12) s = .ok x) (hb : Back x x') (hs : ServiceSurvives false limit s g a)
    (hdig : (digest g.targetNamespace).length = 5) {d : Val} {m : PyWsdlModule} {G : Globals} {os : List PortObj}
    (hd : parseCls (specTable s.version) (D + 12) (D + 12) wDefinitions x' = .ok d)
    (hm : wsdlToPy digest ok [some py"xsd"] (n + 1) false s.version d = .ok m) (he : execWsdl limit m = .ok (G, os)) :
    ∃ o stub, os = [o] ∧ o.stub = some stub ∧ stub.service = o.service ∧
      ('$' ∉ a.rest → stub.location = .ok a.tidied.text) ∧
      ∀ m ∈ s.methods, stub.invoke m.operationName =
        if m.operationName ∈ [py"username", py"password", py"service", py"location"] ∨
          py"call" ∈ s.methods.map (·.operationName) then .error .typeError else .ok m.operationName := by
  obtain ⟨g', rfl⟩ := C91_objects D x x' digest ok n h hb hs hdig hd hm he
  refine ⟨_, stubObj s g' a, rfl, rfl, rfl, fun hd => ?_, fun m hm => ?_⟩
  · obtain ⟨t, scheme, host, l, h1, h2, h3, h4, h5, _⟩ := C90_exact ok a hs.location.2.1 hd
    rw [urlTemplate_eq ok a hs.location.2.1] at h1
    rw [(C90_location ok a hs.location.2.1).1] at h2
    rw [(C90_location ok a hs.location.2.1).2.1] at h3
    obtain rfl := Except.ok.inj h1
    obtain rfl := Except.ok.inj h2
    obtain rfl := Except.ok.inj h3
    rw [← h5]
    exact h4
  · obtain ⟨c, hc, hc2⟩ := find_call s.methods m.operationName (List.mem_map.2 ⟨m, hm, rfl⟩)
    have hany : ((stubObj s g' a).calls.any fun c => c.1 = py"call") = decide (py"call" ∈ s.methods.map (·.operationName)) := by
      show ((s.methods.map fun m => (m.operationName, elementName m.input, m.operationName)).any _) = _
      rw [List.any_map, Bool.eq_iff_iff, List.any_eq_true]
      simp
    have hfind : (stubObj s g' a).calls.reverse.find? (fun c => c.1 = m.operationName) = some c := hc
    unfold StubObj.invoke
    rw [hfind]
    simp only [hany, hc2, decide_eq_true_eq]
    unfold stubAttributes
    by_cases h1 : m.operationName ∈ [py"username", py"password", py"service", py"location"]
    · rw [if_pos h1, if_pos (.inl h1)]
    · rw [if_neg h1]
      by_cases h2 : py"call" ∈ s.methods.map (·.operationName)
      · rw [if_pos h2, if_pos (.inr h2)]
      · rw [if_neg h2, if_neg (not_or.2 ⟨h1, h2⟩)]

end

namespace Ex

/-- A service with two methods; the second is named like an attribute of stub objects. -/
def shopService : WService where
  name := py"Shop"
  targetNamespace := py"urn:shop"
  location := some shopAddress.text
  schemas := [roundSchema]
  version := .soap12
  methods :=
    [{ operationName := py"getOps", soapAction := some py"urn:shop/ops", input := .element py"root"
       output := .element py"other", style := none },
     { operationName := py"location", soapAction := some [], input := .element py"other", output := .element py"root"
       style := some py"rpc" }]

theorem functionName_of {c : Char} {cs : Str} (h1 : (c :: cs).all (fun d => isLetterC d || isDigitC d) = true)
    (h2 : isDigitC c = false) (h3 : (c :: cs) ∉ kwlist) : FunctionName (c :: cs) := by
  have key : ∀ d, (isLetterC d || isDigitC d) = true → IdentChar d := by
    intro d hd
    simp only [isLetterC, isDigitC, Bool.or_eq_true, decide_eq_true_eq] at hd
    unfold IdentChar
    rcases hd with (h | h | h) | h
    · exact .inl h
    · exact .inr (.inl h)
    · exact .inr (.inr (.inl h))
    · exact .inr (.inr (.inr h))
  rw [List.all_eq_true] at h1
  refine ⟨⟨c, cs, rfl, key c (h1 c (List.mem_cons_self ..)), ?_, fun d hd => key d (h1 d (List.mem_cons_of_mem _ hd))⟩, h3⟩
  simpa [isDigitC] using h2

theorem shopService_survives (server : Bool) : ServiceSurvives server 3 shopService roundSchema shopAddress where
  schema := ⟨rfl, roundSchema_survives⟩
  name := by
    refine ⟨?_, ?_⟩
    · intro c hc
      have : c = 'S' ∨ c = 'h' ∨ c = 'o' ∨ c = 'p' := by simpa [shopService] using hc
      unfold IdentChar
      rcases this with rfl | rfl | rfl | rfl <;> decide
    · intro c cs h
      cases h
      decide
  nspace := plainText_of (by decide)
  location := ⟨rfl, shopAddress_ok, plainText_of (by decide)⟩
  methods := by
    intro m hm
    simp only [shopService, List.mem_cons, List.not_mem_nil, or_false] at hm
    rcases hm with rfl | rfl
    · refine ⟨⟨functionName_of (by decide) (by decide) (by decide), by decide⟩,
        ⟨_, rfl, functionName_of (by decide) (by decide) (by decide), ?_⟩,
        ⟨_, rfl, functionName_of (by decide) (by decide) (by decide)⟩, _, rfl, plainText_of (by decide)⟩
      cases server <;> decide
    · refine ⟨⟨functionName_of (by decide) (by decide) (by decide), by decide⟩,
        ⟨_, rfl, functionName_of (by decide) (by decide) (by decide), ?_⟩,
        ⟨_, rfl, functionName_of (by decide) (by decide) (by decide)⟩, _, rfl, plainText_of (by decide)⟩
      cases server <;> decide
  distinct := by decide
  functions := by
    intro _ m hm
    simp only [shopService, List.mem_cons, List.not_mem_nil, or_false] at hm
    rcases hm with rfl | rfl
    · refine ⟨by decide, by decide, by decide, ?_⟩
      intro k hk
      simp only [shopService, List.mem_cons, List.not_mem_nil, or_false] at hk
      rcases hk with rfl | rfl <;> decide
    · refine ⟨by decide, by decide, by decide, ?_⟩
      intro k hk
      simp only [shopService, List.mem_cons, List.not_mem_nil, or_false] at hk
      rcases hk with rfl | rfl <;> decide
  calls := by
    intro _ m hm
    simp only [shopService, List.mem_cons, List.not_mem_nil, or_false] at hm
    rcases hm with rfl | rfl <;> decide

theorem shopService_generates : generateWsdl 12 shopService = .ok (wsdlDocument shopService) := rfl

theorem map_of_all2 {α β γ : Type} {R : α → β → Prop} {as : List α} {bs : List β} {f : α → γ} {k : β → γ} (h : All2 R as bs)
    (hf : ∀ a b, R a b → k b = f a) : as.map f = bs.map k := by
  induction h with
  | nil => rfl
  | cons h1 _ ih => simp only [List.map_cons, hf _ _ h1, ih]

/-- Client code and server code for the service. -/
example (server : Bool) (x' : Xml) (hb : Back (wsdlDocument shopService) x') (digest : Str → Str) (ok : Str → Bool)
    (hdig : (digest py"urn:a").length = 5) : ∃ d m G o,
    parseCls (specTable .soap12) 12 12 wDefinitions x' = .ok d ∧
    wsdlToPy digest ok [some py"xsd"] 1 server .soap12 d = .ok m ∧ execWsdl 3 m = .ok (G, [o]) ∧
    (generateWsdl 12 o.service.wsdl).toOption.isSome ∧ o.service.methods.map (·.operationName) = [py"getOps", py"location"] ∧
    o.service.methods.map (·.style) = [py"document", py"rpc"] := by
  obtain ⟨d, m, G, o, _, h1, h2, h3, h4⟩ :=
    C91_roundtrip 0 _ x' digest ok 0 shopService_generates hb (shopService_survives server) hdig
  obtain ⟨o', ho, h5⟩ := C91_methods 0 _ x' digest ok 0 shopService_generates hb (shopService_survives server) hdig h1 h2 h3
  cases ho
  refine ⟨d, m, G, o, h1, h2, h3, by rw [h4]; rfl, ?_, ?_⟩
  · rw [← map_of_all2 (f := fun m : WMethod => m.operationName) h5 fun _ _ h => h.1]
    rfl
  · rw [← map_of_all2 (f := fun m : WMethod => m.style.getD py"document") h5 fun _ _ h => h.2.2.2.2.1]
    rfl

/-- A stub calls 'getOps', but cannot call 'location'. -/
example (x' : Xml) (hb : Back (wsdlDocument shopService) x') (digest : Str → Str) (ok : Str → Bool)
    (hdig : (digest py"urn:a").length = 5) : ∃ d m G o stub,
    parseCls (specTable .soap12) 12 12 wDefinitions x' = .ok d ∧
    wsdlToPy digest ok [some py"xsd"] 1 false .soap12 d = .ok m ∧ execWsdl 3 m = .ok (G, [o]) ∧ o.stub = some stub ∧
    stub.location = .ok shopAddress.tidied.text ∧ stub.invoke py"getOps" = .ok py"getOps" ∧
    stub.invoke py"location" = .error .typeError := by
  obtain ⟨d, m, G, o, _, h1, h2, h3, h4⟩ :=
    C91_roundtrip 0 _ x' digest ok 0 shopService_generates hb (shopService_survives false) hdig
  obtain ⟨o', stub, ho, h5, _, h6, h7⟩ :=
    C91_stub 0 _ x' digest ok 0 shopService_generates hb (shopService_survives false) hdig h1 h2 h3
  cases ho
  refine ⟨d, m, G, o, stub, h1, h2, h3, h5, h6 (by decide), ?_, ?_⟩
  · exact h7 _ (List.mem_cons_self ..)
  · exact h7 _ (List.mem_cons_of_mem _ (List.mem_cons_self ..))

end Ex

end Soapfish
