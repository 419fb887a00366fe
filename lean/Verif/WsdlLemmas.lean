import Verif.Spec.Wsdl
import Verif.GenerateRender
/-
Building and rendering the description of a service.
-/
set_option maxRecDepth 4000
namespace Soapfish

/-! ### The objects of a description -/

def addressV (location : Option Str) : Val := .inst wSoapAddress [(py"location", optStr location)] none

def portV (name binding : Str) (address : Val) : Val :=
  .inst wPort [(py"name", strV name), (py"binding", strV binding), (py"documentation", Val.none),
    (py"address", address)] none

def serviceV (v : Version) (name : Str) (ports : List Val) : Val :=
  match v with
  | .soap11 => .inst wService [(py"name", strV name), (py"ports", .list true ports), (py"documentation", Val.none)] none
  | .soap12 => .inst wService [(py"name", strV name), (py"documentation", Val.none), (py"ports", .list true ports)] none

def soapOperationV (v : Version) (action style : Option Str) : Val :=
  match v with
  | .soap11 => .inst wSoapOperation [(py"soapAction", optStr action), (py"style", optStr style)] none
  | .soap12 => .inst wSoapOperation [(py"soapAction", optStr action), (py"style", optStr style),
      (py"soapActionRequired", Val.none)] none

def soapBodyV : Val :=
  .inst wSoapBody [(py"parts", Val.none), (py"use", strV py"literal"), (py"namespace", Val.none),
    (py"encodingStyle", Val.none)] none

/-- An Input or Output. -/
def flowV (c : ClsId) (message : Option Str) (body : Val) : Val :=
  .inst c [(py"name", Val.none), (py"message", optStr message), (py"documentation", Val.none), (py"body", body),
    (py"headers", .list true [])] none

def operationV (v : Version) (name : Str) (input output soap : Val) : Val :=
  match v with
  | .soap11 => .inst wOperation [(py"name", strV name), (py"input", input), (py"output", output),
      (py"faults", .list true []), (py"documentation", Val.none), (py"operation", soap)] none
  | .soap12 => .inst wOperation [(py"name", strV name), (py"documentation", Val.none), (py"input", input),
      (py"output", output), (py"faults", .list true []), (py"operation", soap)] none

def soapBindingV : Val :=
  .inst wSoapBinding [(py"style", strV py"document"), (py"transport", strV nsSoapHttp)] none

def bindingV (v : Version) (name type : Str) (operations : List Val) : Val :=
  match v with
  | .soap11 => .inst wBinding [(py"name", strV name), (py"type", strV type), (py"operations", .list true operations),
      (py"documentation", Val.none), (py"binding", soapBindingV)] none
  | .soap12 => .inst wBinding [(py"name", strV name), (py"type", strV type), (py"documentation", Val.none),
      (py"operations", .list true operations), (py"binding", soapBindingV)] none

def portTypeV (v : Version) (name : Str) (operations : List Val) : Val :=
  match v with
  | .soap11 => .inst wPortType [(py"name", strV name), (py"operations", .list true operations),
      (py"documentation", Val.none)] none
  | .soap12 => .inst wPortType [(py"name", strV name), (py"documentation", Val.none),
      (py"operations", .list true operations)] none

def partV (element type : Option Str) : Val :=
  .inst wPart [(py"name", strV py"body"), (py"element", optStr element), (py"type", optStr type)] none

def messageV (v : Version) (name : Str) (part : Val) : Val :=
  match v with
  | .soap11 => .inst wMessage [(py"name", strV name), (py"parts", .list false [part]), (py"documentation", Val.none)] none
  | .soap12 => .inst wMessage [(py"name", strV name), (py"documentation", Val.none), (py"parts", .list false [part])] none

def typesV (schemas : List Val) : Val :=
  .inst wTypes [(py"schemas", .list false schemas), (py"documentation", Val.none)] none

def definitionsV (v : Version) (tns : Str) (types : Val) (messages portTypes bindings services : List Val) : Val :=
  match v with
  | .soap11 => .inst wDefinitions [(py"name", Val.none), (py"targetNamespace", strV tns), (py"imports", .list true []),
      (py"types", types), (py"messages", .list true messages), (py"portTypes", .list true portTypes),
      (py"bindings", .list true bindings), (py"services", .list true services), (py"documentation", Val.none)] none
  | .soap12 => .inst wDefinitions [(py"name", Val.none), (py"targetNamespace", strV tns),
      (py"documentation", Val.none), (py"imports", .list true []),
      (py"types", types), (py"messages", .list true messages), (py"portTypes", .list true portTypes),
      (py"bindings", .list true bindings), (py"services", .list true services)] none

/-! ### The description of a service -/

def partOf : WPart → Val
  | .element n => partV (some (py"sns:" ++ n)) none
  | .cls n => partV none (some (py"sns:" ++ refName n))
  | .none => partV none none

def messagesOf (v : Version) (m : WMethod) : List Val :=
  [messageV v (m.operationName ++ py"Input") (partOf m.input), messageV v (m.operationName ++ py"Output") (partOf m.output)]

def portOperationOf (v : Version) (m : WMethod) : Val :=
  operationV v m.operationName (flowV wInput (some (py"tns:" ++ m.operationName ++ py"Input")) Val.none)
    (flowV wOutput (some (py"tns:" ++ m.operationName ++ py"Output")) Val.none) Val.none

def bindingOperationOf (v : Version) (m : WMethod) : Val :=
  operationV v m.operationName (flowV wInput none soapBodyV) (flowV wOutput none soapBodyV)
    (soapOperationV v m.soapAction m.style)

def portTypeOf (v : Version) (s : WService) : Val :=
  portTypeV v (s.name ++ py"PortType") (s.methods.map (portOperationOf v))

def bindingOf (v : Version) (s : WService) : Val :=
  bindingV v (s.name ++ py"Binding") (py"tns:" ++ s.name ++ py"PortType") (s.methods.map (bindingOperationOf v))

def serviceOf (v : Version) (s : WService) : Val :=
  serviceV v s.name [portV (s.name ++ py"Port") (py"tns:" ++ s.name ++ py"Binding") (addressV s.location)]

/-- The description of a service. -/
def definitionsOf (v : Version) (s : WService) : Val :=
  definitionsV v s.targetNamespace (typesV (s.schemas.map describe)) (s.methods.flatMap (messagesOf v)) [portTypeOf v s]
    [bindingOf v s] [serviceOf v s]

/-! ### Building -/

section
variable (v : Version) (D : Nat)

theorem build_wTypes (s : WService) (tns : Str) :
    SpecBuilds (buildTypes v (D + 12) (definitionsV v tns Val.none [] [] [] []) s) (∀ g ∈ s.schemas, Buildable g)
      (definitionsV v tns (typesV (s.schemas.map describe)) [] [] [] []) := by
  unfold buildTypes
  refine ((Gives.mapE (build_schema v D) s.schemas).bind (Q := True) fun _ => Gives.of_eq ?_).congr (by simp)
  cases v <;> rfl

theorem build_wService (s : WService) (tns : Str) (types : Val) :
    buildService v (D + 12) (definitionsV v tns types [] [] [] []) s =
      .ok (definitionsV v tns types [] [] [] [serviceOf v s]) := by
  unfold serviceOf buildService addressV
  cases s.location <;> cases v <;> rfl

theorem style_cases {m : WMethod} (h : m.style ∈ [none, some py"document", some py"rpc"]) :
    m.style = none ∨ m.style = some py"document" ∨ m.style = some py"rpc" := by
  simpa using h

theorem style_accept (st : Str) :
    (SType.string { enumeration := [py"document", py"rpc"] }).accept (.str st) =
      if st = py"document" ∨ st = py"rpc" then .ok (.str st) else .error .valueError := by
  show (raiseIf (!([py"document", py"rpc"].contains st)) .valueError >>= fun _ => Except.ok (Atom.str st)) = _
  by_cases h : st = py"document" ∨ st = py"rpc"
  · rw [if_pos h]
    rcases h with rfl | rfl <;> rfl
  · rw [if_neg h]
    have hc : [py"document", py"rpc"].contains st = false := by
      rw [Bool.eq_false_iff]
      intro hc
      simp at hc
      exact h hc
    rw [hc]; rfl

theorem set_style (action : Option Str) (st : Str) :
    setSpec v (D + 12) (soapOperationV v action none) py"style" (optStr (some st)) =
      if st = py"document" ∨ st = py"rpc" then .ok (soapOperationV v action (some st)) else .error .valueError := by
  have h : setSpec v (D + 12) (soapOperationV v action none) py"style" (optStr (some st)) =
      (((SType.string { enumeration := [py"document", py"rpc"] }).accept (.str st)).map Val.atom >>= fun w =>
        .ok (match v with
          | .soap11 => .inst wSoapOperation [(py"soapAction", optStr action), (py"style", w)] none
          | .soap12 => .inst wSoapOperation [(py"soapAction", optStr action), (py"style", w),
              (py"soapActionRequired", Val.none)] none)) := by
    cases v <;> rfl
  rw [h, style_accept]
  by_cases hs : st = py"document" ∨ st = py"rpc"
  · rw [if_pos hs, if_pos hs]; cases v <;> rfl
  · rw [if_neg hs, if_neg hs]; rfl

theorem build_bindingOperation (m : WMethod) :
    SpecBuilds (bindingOperation v (D + 12) m) (m.style ∈ [none, some py"document", some py"rpc"])
      (bindingOperationOf v m) := by
  have h : bindingOperation v (D + 12) m =
      (setSpec v (D + 12) (soapOperationV v m.soapAction none) py"style" (optStr m.style) >>= fun soap =>
        setSpec v (D + 12) (operationV v m.operationName (flowV wInput none soapBodyV) (flowV wOutput none soapBodyV)
          Val.none) py"operation" soap) := by
    unfold bindingOperation
    cases m.soapAction <;> cases v <;> rfl
  rw [h]
  have hset : ∀ st, setSpec v (D + 12) (operationV v m.operationName (flowV wInput none soapBodyV)
      (flowV wOutput none soapBodyV) Val.none) py"operation" (soapOperationV v m.soapAction st) =
      .ok (operationV v m.operationName (flowV wInput none soapBodyV)
      (flowV wOutput none soapBodyV) (soapOperationV v m.soapAction st)) := by
    intro st; cases v <;> rfl
  cases hs : m.style with
  | none =>
    have : setSpec v (D + 12) (soapOperationV v m.soapAction none) py"style" (optStr none) =
        .ok (soapOperationV v m.soapAction none) := by cases v <;> rfl
    rw [this, Except_ok_bind, hset]
    refine (Gives.ok _).congr' (by simp) fun _ => ?_
    rw [bindingOperationOf, hs]
  | some st =>
    rw [set_style]
    by_cases hc : st = py"document" ∨ st = py"rpc"
    · rw [if_pos hc, Except_ok_bind, hset]
      refine (Gives.ok _).congr' (by simp [hc]) fun _ => ?_
      rw [bindingOperationOf, hs]
    · rw [if_neg hc]
      exact ⟨fun h => by simp at h; exact absurd h hc, fun _ => ⟨.valueError, .inl rfl, rfl⟩⟩

theorem build_wBindings (s : WService) (tns : Str) (types : Val) (ss : List Val) :
    SpecBuilds (buildBindings v (D + 12) (definitionsV v tns types [] [] [] ss) s)
      (∀ m ∈ s.methods, m.style ∈ [none, some py"document", some py"rpc"])
      (definitionsV v tns types [] [] [bindingOf v s] ss) := by
  have h : buildBindings v (D + 12) (definitionsV v tns types [] [] [] ss) s =
      (foldE (fun b m => bindingOperation v (D + 12) m >>= fun o => appendSpec v (D + 12) py"operations" b o)
          (bindingV v (s.name ++ py"Binding") (py"tns:" ++ s.name ++ py"PortType") []) s.methods >>= fun b =>
        appendSpec v (D + 12) py"bindings" (definitionsV v tns types [] [] [] ss) b) := by
    unfold buildBindings
    cases v <;> rfl
  rw [h]
  have hf := Gives.fold (E := BuildErr)
    (mk := bindingV v (s.name ++ py"Binding") (py"tns:" ++ s.name ++ py"PortType"))
    (step := fun b m => bindingOperation v (D + 12) m >>= fun o => appendSpec v (D + 12) py"operations" b o)
    (P := fun m : WMethod => m.style ∈ [none, some py"document", some py"rpc"]) (g := bindingOperationOf v)
    (fun items m => ((build_bindingOperation v D m).bind (Q := True) fun _ => Gives.of_eq (by
      unfold bindingOperationOf; cases v <;> rfl)).congr (by simp)) s.methods []
  refine (hf.bind (Q := True) fun _ => Gives.of_eq ?_).congr (by simp)
  unfold bindingOf
  cases v <;> rfl

theorem build_wPortTypes (s : WService) (tns : Str) (types : Val) (bs ss : List Val) :
    SpecBuilds (buildPortTypes v (D + 12) (definitionsV v tns types [] [] bs ss) s) True
      (definitionsV v tns types [] [portTypeOf v s] bs ss) := by
  have h : buildPortTypes v (D + 12) (definitionsV v tns types [] [] bs ss) s =
      (foldE (fun b m => portTypeOperation v (D + 12) m >>= fun o => appendSpec v (D + 12) py"operations" b o)
          (portTypeV v (s.name ++ py"PortType") []) s.methods >>= fun b =>
        appendSpec v (D + 12) py"portTypes" (definitionsV v tns types [] [] bs ss) b) := by
    unfold buildPortTypes
    cases v <;> rfl
  rw [h]
  have hf := Gives.fold (E := BuildErr) (mk := portTypeV v (s.name ++ py"PortType"))
    (step := fun b m => portTypeOperation v (D + 12) m >>= fun o => appendSpec v (D + 12) py"operations" b o)
    (P := fun _ : WMethod => True) (g := portOperationOf v)
    (fun items m => Gives.of_eq (by unfold portOperationOf; cases v <;> rfl)) s.methods []
  refine (hf.bind (Q := True) fun _ => Gives.of_eq ?_).congr (by simp)
  unfold portTypeOf
  cases v <;> rfl

theorem build_part (p : WPart) : SpecBuilds (messagePart v (D + 12) p) (PartBuilds p) (partOf p) := by
  have h : ∀ f : Val → Except Exn Val, (mkSpec v (D + 12) wPart [(py"name", strV py"body")] >>= f) =
      f (partV none none) := fun f => rfl
  unfold messagePart
  rw [h]
  cases p with
  | element n => exact Gives.of_eq rfl
  | cls n =>
    refine ((uncapitalize_gives n).bind (Q := True) fun _ => Gives.of_eq ?_).congr (by simp [PartBuilds])
    rfl
  | none => exact Gives.never rfl (.inr (.inr rfl))

theorem build_message (tns : Str) (types : Val) (ms ps bs ss : List Val) (name : Str) (p : WPart) :
    SpecBuilds (addMessage v (D + 12) (definitionsV v tns types ms ps bs ss) name p) (PartBuilds p)
      (definitionsV v tns types (ms ++ [messageV v name (partOf p)]) ps bs ss) := by
  unfold addMessage
  have h : mkSpec v (D + 12) wMessage [(py"name", strV name)] = .ok (match v with
      | .soap11 => .inst wMessage [(py"name", strV name), (py"parts", .list true []), (py"documentation", Val.none)] none
      | .soap12 => .inst wMessage [(py"name", strV name), (py"documentation", Val.none), (py"parts", .list true [])] none) := by
    cases v <;> rfl
  refine Gives.bind_ok h ?_
  refine ((build_part v D p).bind (Q := True) fun _ => Gives.of_eq ?_).congr (by simp)
  cases p <;> cases v <;> rfl

theorem build_wMessages (s : WService) (tns : Str) (types : Val) (ps bs ss : List Val) :
    SpecBuilds (buildMessages v (D + 12) (definitionsV v tns types [] ps bs ss) s)
      (∀ m ∈ s.methods, PartBuilds m.input ∧ PartBuilds m.output)
      (definitionsV v tns types (s.methods.flatMap (messagesOf v)) ps bs ss) := by
  unfold buildMessages
  have key : ∀ (l : List WMethod) ms, SpecBuilds (foldE (fun d m => do
      let d ← addMessage v (D + 12) d (m.operationName ++ py"Input") m.input
      addMessage v (D + 12) d (m.operationName ++ py"Output") m.output) (definitionsV v tns types ms ps bs ss) l)
      (∀ m ∈ l, PartBuilds m.input ∧ PartBuilds m.output)
      (definitionsV v tns types (ms ++ l.flatMap (messagesOf v)) ps bs ss) := by
    intro l
    induction l with
    | nil => intro ms; exact (Gives.ok _).congr' (by simp) (by simp)
    | cons m l ih =>
      intro ms
      have h1 := (build_message v D tns types ms ps bs ss (m.operationName ++ py"Input") m.input).bind
        (f := fun d => addMessage v (D + 12) d (m.operationName ++ py"Output") m.output) fun _ =>
        build_message v D tns types _ ps bs ss (m.operationName ++ py"Output") m.output
      refine (h1.bind fun _ => ih _).congr' (by simp) fun _ => ?_
      simp [messagesOf]
  exact key s.methods []

theorem build_definitions (s : WService) :
    SpecBuilds (generateDefinitions v (D + 12) s) (WsdlBuildable s) (definitionsOf v s) := by
  unfold generateDefinitions
  have h0 : mkSpec v (D + 12) wDefinitions [(py"targetNamespace", strV s.targetNamespace)] =
      .ok (definitionsV v s.targetNamespace Val.none [] [] [] []) := by cases v <;> rfl
  refine (Gives.bind_ok h0 <| (build_wTypes v D s _).bind fun _ => Gives.bind_ok (build_wService v D s _ _) <|
    (build_wBindings v D s _ _ _).bind fun _ => (build_wPortTypes v D s _ _ _ _).bind fun _ =>
    build_wMessages v D s _ _ _ _ _).congr ?_
  unfold WsdlBuildable MethodBuilds
  constructor
  · rintro ⟨h1, h2, _, h3⟩
    exact ⟨h1, fun m hm => ⟨(h3 m hm).1, (h3 m hm).2, h2 m hm⟩⟩
  · rintro ⟨h1, h2⟩
    exact ⟨h1, fun m hm => (h2 m hm).2.2, trivial, fun m hm => ⟨(h2 m hm).1, (h2 m hm).2.1⟩⟩

/-! ### Rendering -/

variable (n : Nat)

local notation "rn" k => renderCls (specTable v) k

instance (s : Str) : Decidable (XmlOk s) := by unfold XmlOk; infer_instance

/-- The output for plain attributes. -/
def plainOut (attrs : List (Str × Str)) (kids : List Xml) : Out :=
  { attrs := attrs.map fun p => (⟨none, p.1⟩, p.2), kids := kids }

theorem render_doc (ns : Option Str) (q : Bool) (T : Table) (rc : RenderCls) :
    Renders (renderField T rc documentation Val.none ns q) True {} := renders_none rfl

theorem render_address (l : Option Str) (ns : Option Str) :
    Renders ((rn (n + 1)) wSoapAddress (addressV l) ns true) (∃ s, l = some s ∧ XmlOk s)
      (plainOut (optAttr py"location" l) []) := by
  refine (renders_cons rfl (renders_strAttr py"location" true l) renders_nil).congr' ?_ fun _ => ?_
  · cases l <;> simp
  · cases l <;> rfl

theorem render_port (name binding : Str) (l : Option Str) :
    Renders ((rn (n + 2)) wPort (portV name binding (addressV l)) (some nsWsdl) true)
      (XmlOk name ∧ XmlOk binding ∧ ∃ s, l = some s ∧ XmlOk s)
      (plainOut [(py"name", name), (py"binding", binding)] [soapNode v py"address" (optAttr py"location" l)]) := by
  refine (renders_cons (v := optStr (some name)) rfl (renders_strAttr py"name" true (some name)) <|
    renders_cons (v := optStr (some binding)) rfl (renders_strAttr py"binding" true (some binding)) <|
    renders_cons rfl (render_doc _ _ _ _) <|
    renders_cons rfl (renders_elem (c := wSoapAddress) rfl rfl (render_address v n l (some v.bindingNs)))
      renders_nil).congr' ?_ fun _ => ?_
  · simp
  · cases l <;> cases v <;> rfl

theorem render_service (name : Str) (pn pb : Str) (l : Option Str) :
    Renders ((rn (n + 3)) wService (serviceV v name [portV pn pb (addressV l)]) (some nsWsdl) true)
      (XmlOk name ∧ XmlOk pn ∧ XmlOk pb ∧ ∃ s, l = some s ∧ XmlOk s)
      (plainOut [(py"name", name)] [wsdlNode py"port" [(py"name", pn), (py"binding", pb)]
        [soapNode v py"address" (optAttr py"location" l)]]) := by
  have hname := renders_strAttr (T := specTable v) (rc := rn (n + 2)) (ns := some nsWsdl) (q := true) py"name" true (some name)
  have hports := renders_list (T := specTable v) (rc := rn (n + 2)) (ns := some nsWsdl) (q := true)
    (f := listOf py"ports" py"port" wPort (some 0)) (c := wPort) (val := fun _ : Unit => portV pn pb (addressV l))
    (l := [()]) (t := true) rfl rfl (.inr rfl) rfl (fun _ => ⟨_, _, _, rfl⟩) (fun _ => render_port v n pn pb l)
  cases v
  · refine (renders_cons (v := optStr (some name)) rfl hname <| renders_cons rfl hports <|
      renders_cons rfl (render_doc _ _ _ _) renders_nil).congr' ?_ fun _ => ?_
    · simp
    · rfl
  · refine (renders_cons (v := optStr (some name)) rfl hname <| renders_cons rfl (render_doc _ _ _ _) <|
      renders_cons rfl hports renders_nil).congr' ?_ fun _ => ?_
    · simp
    · rfl

theorem render_soapBody (ns : Option Str) : Renders ((rn (n + 1)) wSoapBody soapBodyV ns true) True
    (plainOut [(py"use", py"literal")] []) := by
  refine (renders_cons rfl (renders_strAttr py"parts" false none) <|
    renders_cons (v := optStr (some py"literal")) rfl
      (renders_enumAttr py"use" [py"encoded", py"literal"] true Val.none (some py"literal")) <|
    renders_cons rfl (renders_strAttr py"namespace" false none) <|
    renders_cons rfl (renders_strAttr py"encodingStyle" false none) renders_nil).congr' ?_ fun _ => ?_
  · simp; decide
  · rfl

theorem render_soapOperation (action style : Option Str) (ns : Option Str) :
    Renders ((rn (n + 1)) wSoapOperation (soapOperationV v action style) ns true)
      ((∀ a, action = some a → XmlOk a) ∧ (∀ a, style = some a → XmlOk a))
      (plainOut (optAttr py"soapAction" action ++ optAttr py"style" style) []) := by
  have h1 := renders_strAttr (T := specTable v) (rc := rn n) (ns := ns) (q := true) py"soapAction" false action
  have h2 := renders_enumAttr (T := specTable v) (rc := rn n) (ns := ns) (q := true) py"style"
    [py"document", py"rpc"] false Val.none style
  cases v
  · refine (renders_cons rfl h1 <| renders_cons rfl h2 renders_nil).congr' ?_ fun _ => ?_
    · simp
    · cases action <;> cases style <;> rfl
  · refine (renders_cons rfl h1 <| renders_cons rfl h2 <| renders_cons (Q := True) (P := True)
      (f := { name := py"soapActionRequired", kind := .attribute, type := .simple .boolean, required := false })
      (v := Val.none) (o := {}) (os := {}) rfl (Gives.of_eq rfl) renders_nil).congr' ?_ fun _ => ?_
    · simp
    · cases action <;> cases style <;> rfl

theorem render_headers (T : Table) (rc : RenderCls) (ns : Option Str) (q : Bool) (name tag : Str) (c : ClsId) (m : Option Int)
    (hm : m = none ∨ m = some 0) (fns : Option Str) :
    Renders (renderField T rc (listOf name tag c m fns) (.list true []) ns q) True {} := by
  rcases hm with rfl | rfl <;> exact Gives.of_eq rfl

theorem render_flow_message {c : ClsId} (hc : c = wInput ∨ c = wOutput) (message : Str) :
    Renders ((rn (n + 2)) c (flowV c (some message) Val.none) (some nsWsdl) true) (XmlOk message)
      (plainOut [(py"message", message)] []) := by
  have key : Renders (renderFields (specTable v) (rn (n + 1))
      [(py"name", Val.none), (py"message", optStr (some message)), (py"documentation", Val.none), (py"body", Val.none),
        (py"headers", .list true [])] (some nsWsdl) true
      [strAttr py"name" false, strAttr py"message" false, documentation, elem py"body" wSoapBody true (some v.bindingNs),
        listOf py"headers" py"header" wSoapHeader (some 0) (some v.bindingNs)]) (XmlOk message)
      (plainOut [(py"message", message)] []) :=
    (renders_cons rfl (renders_strAttr py"name" false none) <|
    renders_cons rfl (renders_strAttr py"message" false (some message)) <|
    renders_cons rfl (render_doc _ _ _ _) <| renders_cons rfl (renders_none rfl) <|
    renders_cons rfl (render_headers _ _ _ _ _ _ _ _ (.inr rfl) _) renders_nil).congr' (by simp) fun _ => rfl
  rcases hc with rfl | rfl <;> exact key

theorem render_flow_body {c : ClsId} (hc : c = wInput ∨ c = wOutput) :
    Renders ((rn (n + 2)) c (flowV c none soapBodyV) (some nsWsdl) true) True
      (plainOut [] [soapNode v py"body" [(py"use", py"literal")]]) := by
  have key : Renders (renderFields (specTable v) (rn (n + 1))
      [(py"name", Val.none), (py"message", optStr none), (py"documentation", Val.none), (py"body", soapBodyV),
        (py"headers", .list true [])] (some nsWsdl) true
      [strAttr py"name" false, strAttr py"message" false, documentation, elem py"body" wSoapBody true (some v.bindingNs),
        listOf py"headers" py"header" wSoapHeader (some 0) (some v.bindingNs)]) True
      (plainOut [] [soapNode v py"body" [(py"use", py"literal")]]) :=
    (renders_cons rfl (renders_strAttr py"name" false none) <|
    renders_cons rfl (renders_strAttr py"message" false none) <|
    renders_cons rfl (render_doc _ _ _ _) <|
    renders_cons rfl (renders_elem (c := wSoapBody) rfl rfl (render_soapBody v n (some v.bindingNs))) <|
    renders_cons rfl (render_headers _ _ _ _ _ _ _ _ (.inr rfl) _) renders_nil).congr' (by simp) fun _ => by
      cases v <;> rfl
  rcases hc with rfl | rfl <;> exact key

/-- An operation with an input, an output and possibly a SOAP operation. -/
theorem render_operation (name : Str) {i o : Val} {soap : Val} {P Q R : Prop} {oi oo : Out} {os : Out}
    (hi : Renders (renderField (specTable v) (rn (n + 2)) (elem py"input" wInput false) i (some nsWsdl) true) P oi)
    (ho : Renders (renderField (specTable v) (rn (n + 2)) (elem py"output" wOutput false) o (some nsWsdl) true) Q oo)
    (hs : Renders (renderField (specTable v) (rn (n + 2)) (elem py"operation" wSoapOperation false (some v.bindingNs)) soap
      (some nsWsdl) true) R os) (hia : oi.attrs = []) (hoa : oo.attrs = []) (hsa : os.attrs = []) :
    Renders ((rn (n + 3)) wOperation (operationV v name i o soap) (some nsWsdl) true) (XmlOk name ∧ P ∧ Q ∧ R)
      (plainOut [(py"name", name)] (oi.kids ++ oo.kids ++ os.kids)) := by
  have hn := renders_strAttr (T := specTable v) (rc := rn (n + 2)) (ns := some nsWsdl) (q := true) py"name" true (some name)
  have hf := render_headers (specTable v) (rn (n + 2)) (some nsWsdl) true py"faults" py"fault" wFault (some 0) (.inr rfl) none
  cases v
  · refine (renders_cons (v := optStr (some name)) rfl hn <| renders_cons rfl hi <| renders_cons rfl ho <|
      renders_cons rfl hf <| renders_cons rfl (render_doc _ _ _ _) <| renders_cons rfl hs renders_nil).congr' ?_ fun _ => ?_
    · simp
    · simp [Out.append, plainOut, attrOut, hia, hoa, hsa]
  · refine (renders_cons (v := optStr (some name)) rfl hn <| renders_cons rfl (render_doc _ _ _ _) <|
      renders_cons rfl hi <| renders_cons rfl ho <|
      renders_cons rfl hf <| renders_cons rfl hs renders_nil).congr' ?_ fun _ => ?_
    · simp
    · simp [Out.append, plainOut, attrOut, hia, hoa, hsa]

theorem xmlOk_tns (a b : Str) (ha : XmlOk a) (c : Str) (hc : XmlOk c) : XmlOk (a ++ b ++ c) ↔ XmlOk b := by
  simp [xmlOk_append, ha, hc]

theorem render_portOperation (m : WMethod) :
    Renders ((rn (n + 3)) wOperation (portOperationOf v m) (some nsWsdl) true) (XmlOk m.operationName)
      (plainOut [(py"name", m.operationName)]
        [wsdlNode py"input" [(py"message", py"tns:" ++ m.operationName ++ py"Input")] [],
          wsdlNode py"output" [(py"message", py"tns:" ++ m.operationName ++ py"Output")] []]) := by
  have hi := renders_elem (T := specTable v) (f := elem py"input" wInput false) (ns := some nsWsdl) (q := true) rfl rfl
    (render_flow_message v n (.inl rfl) (py"tns:" ++ m.operationName ++ py"Input"))
  have ho := renders_elem (T := specTable v) (f := elem py"output" wOutput false) (ns := some nsWsdl) (q := true) rfl rfl
    (render_flow_message v n (.inr rfl) (py"tns:" ++ m.operationName ++ py"Output"))
  refine (render_operation v n m.operationName hi ho (renders_none rfl) rfl rfl rfl).congr' ?_ fun _ => ?_
  · rw [xmlOk_tns _ _ (by decide) _ (by decide), xmlOk_tns _ _ (by decide) _ (by decide)]; simp
  · rfl

theorem style_xmlOk {st : Option Str} (h : st ∈ [none, some py"document", some py"rpc"]) (a : Str) (ha : st = some a) :
    XmlOk a := by
  subst ha
  simp at h
  rcases h with rfl | rfl <;> decide

theorem render_bindingOperation (m : WMethod) (hm : m.style ∈ [none, some py"document", some py"rpc"]) :
    Renders ((rn (n + 3)) wOperation (bindingOperationOf v m) (some nsWsdl) true)
      (XmlOk m.operationName ∧ ∀ a, m.soapAction = some a → XmlOk a)
      (plainOut [(py"name", m.operationName)]
        [wsdlNode py"input" [] [soapNode v py"body" [(py"use", py"literal")]],
          wsdlNode py"output" [] [soapNode v py"body" [(py"use", py"literal")]],
          soapNode v py"operation" (optAttr py"soapAction" m.soapAction ++ optAttr py"style" m.style)]) := by
  have hi := renders_elem (T := specTable v) (f := elem py"input" wInput false) (ns := some nsWsdl) (q := true) rfl rfl
    (render_flow_body v n (.inl rfl))
  have ho := renders_elem (T := specTable v) (f := elem py"output" wOutput false) (ns := some nsWsdl) (q := true) rfl rfl
    (render_flow_body v n (.inr rfl))
  have hs : Renders (renderField (specTable v) (rn (n + 2)) (elem py"operation" wSoapOperation false (some v.bindingNs))
      (soapOperationV v m.soapAction m.style) (some nsWsdl) true)
      ((∀ a, m.soapAction = some a → XmlOk a) ∧ (∀ a, m.style = some a → XmlOk a))
      { kids := [mkElem (childTag (elem py"operation" wSoapOperation false (some v.bindingNs)) py"operation" (some nsWsdl)
        true) (plainOut (optAttr py"soapAction" m.soapAction ++ optAttr py"style" m.style) []) none] } := by
    have := render_soapOperation v (n + 1) m.soapAction m.style (some v.bindingNs)
    cases v
    · exact renders_elem (c := wSoapOperation) rfl rfl this
    · exact renders_elem (c := wSoapOperation) rfl rfl this
  refine (render_operation v n m.operationName hi ho hs rfl rfl rfl).congr' ?_ fun _ => ?_
  · exact ⟨fun h => ⟨h.1, h.2.2.2.1⟩, fun h => ⟨h.1, trivial, trivial, h.2, style_xmlOk hm⟩⟩
  · cases v <;> cases m.soapAction <;> cases m.style <;> rfl

theorem render_portType (s : WService) :
    Renders ((rn (n + 4)) wPortType (portTypeOf v s) (some nsWsdl) true)
      (XmlOk s.name ∧ ∀ m ∈ s.methods, XmlOk m.operationName)
      (plainOut [(py"name", s.name ++ py"PortType")] (s.methods.map fun m =>
        mkElem ⟨some nsWsdl, py"operation"⟩ (plainOut [(py"name", m.operationName)]
          [wsdlNode py"input" [(py"message", py"tns:" ++ m.operationName ++ py"Input")] [],
            wsdlNode py"output" [(py"message", py"tns:" ++ m.operationName ++ py"Output")] []]) none)) := by
  have hn := renders_strAttr (T := specTable v) (rc := rn (n + 3)) (ns := some nsWsdl) (q := true) py"name" true
    (some (s.name ++ py"PortType"))
  have hl := renders_list (T := specTable v) (rc := rn (n + 3)) (ns := some nsWsdl) (q := true)
    (f := listOf py"operations" py"operation" wOperation (some 0)) (c := wOperation) (val := portOperationOf v)
    (l := s.methods) (t := true) rfl rfl (.inr rfl) rfl
    (fun _ => by unfold portOperationOf operationV; cases v <;> exact ⟨_, _, _, rfl⟩)
    (fun m => render_portOperation v n m)
  have hx : XmlOk (s.name ++ py"PortType") ↔ XmlOk s.name := by
    rw [xmlOk_append]; exact ⟨fun h => h.1, fun h => ⟨h, by decide⟩⟩
  unfold portTypeOf
  cases v
  · refine (renders_cons (v := optStr (some (s.name ++ py"PortType"))) rfl hn <| renders_cons rfl hl <|
      renders_cons rfl (render_doc _ _ _ _) renders_nil).congr' ?_ fun _ => ?_
    · simp [hx]
    · simp [Out.append, plainOut, attrOut]; intros; rfl
  · refine (renders_cons (v := optStr (some (s.name ++ py"PortType"))) rfl hn <|
      renders_cons rfl (render_doc _ _ _ _) <| renders_cons rfl hl renders_nil).congr' ?_ fun _ => ?_
    · simp [hx]
    · simp [Out.append, plainOut, attrOut]; intros; rfl

theorem render_soapBinding (ns : Option Str) : Renders ((rn (n + 1)) wSoapBinding soapBindingV ns true) True
    (plainOut [(py"style", py"document"), (py"transport", nsSoapHttp)] []) := by
  refine (renders_cons (v := optStr (some py"document")) rfl
      (renders_enumAttr py"style" [py"document", py"rpc"] false (.atom (.str py"document")) (some py"document")) <|
    renders_cons (v := optStr (some nsSoapHttp)) rfl (renders_strAttr py"transport" true (some nsSoapHttp))
      renders_nil).congr' ?_ fun _ => ?_
  · simp; decide
  · rfl

theorem render_binding (s : WService) (hs : ∀ m ∈ s.methods, m.style ∈ [none, some py"document", some py"rpc"]) :
    Renders ((rn (n + 4)) wBinding (bindingOf v s) (some nsWsdl) true)
      (XmlOk s.name ∧ ∀ m ∈ s.methods, XmlOk m.operationName ∧ ∀ a, m.soapAction = some a → XmlOk a)
      (plainOut [(py"name", s.name ++ py"Binding"), (py"type", py"tns:" ++ s.name ++ py"PortType")]
        ((s.methods.map fun m => mkElem ⟨some nsWsdl, py"operation"⟩ (plainOut [(py"name", m.operationName)]
          [wsdlNode py"input" [] [soapNode v py"body" [(py"use", py"literal")]],
            wsdlNode py"output" [] [soapNode v py"body" [(py"use", py"literal")]],
            soapNode v py"operation" (optAttr py"soapAction" m.soapAction ++ optAttr py"style" m.style)]) none) ++
          [soapNode v py"binding" [(py"style", py"document"), (py"transport", nsSoapHttp)]])) := by
  have hn := renders_strAttr (T := specTable v) (rc := rn (n + 3)) (ns := some nsWsdl) (q := true) py"name" true
    (some (s.name ++ py"Binding"))
  have ht := renders_strAttr (T := specTable v) (rc := rn (n + 3)) (ns := some nsWsdl) (q := true) py"type" true
    (some (py"tns:" ++ s.name ++ py"PortType"))
  have hl := renders_list_mem (T := specTable v) (rc := rn (n + 3)) (ns := some nsWsdl) (q := true)
    (f := listOf py"operations" py"operation" wOperation (some 0)) (c := wOperation) (val := bindingOperationOf v)
    (l := s.methods) (t := true) rfl rfl (.inr rfl) rfl
    (fun _ => by unfold bindingOperationOf operationV; cases v <;> exact ⟨_, _, _, rfl⟩)
    (fun m hm => render_bindingOperation v n m (hs m hm))
  have hb := renders_elem (T := specTable v) (f := elem py"binding" wSoapBinding true (some v.bindingNs))
    (ns := some nsWsdl) (q := true) (c := wSoapBinding) rfl rfl (render_soapBinding v (n + 2) (some v.bindingNs))
  have hx : XmlOk (s.name ++ py"Binding") ↔ XmlOk s.name := by
    rw [xmlOk_append]; exact ⟨fun h => h.1, fun h => ⟨h, by decide⟩⟩
  have hx' := xmlOk_tns py"tns:" s.name (by decide) py"PortType" (by decide)
  unfold bindingOf
  cases v
  · refine (renders_cons (v := optStr (some (s.name ++ py"Binding"))) rfl hn <|
      renders_cons (v := optStr (some (py"tns:" ++ s.name ++ py"PortType"))) rfl ht <| renders_cons rfl hl <|
      renders_cons rfl (render_doc _ _ _ _) <| renders_cons rfl hb renders_nil).congr' ?_ fun _ => ?_
    · rw [← hx'] at hx ⊢
      simp only [hx, hx', Option.some.injEq, forall_eq']
      simp
    · simp [Out.append, plainOut, attrOut]; exact ⟨fun _ _ => rfl, rfl⟩
  · refine (renders_cons (v := optStr (some (s.name ++ py"Binding"))) rfl hn <|
      renders_cons (v := optStr (some (py"tns:" ++ s.name ++ py"PortType"))) rfl ht <|
      renders_cons rfl (render_doc _ _ _ _) <| renders_cons rfl hl <| renders_cons rfl hb renders_nil).congr' ?_ fun _ => ?_
    · rw [← hx'] at hx ⊢
      simp only [hx, hx', Option.some.injEq, forall_eq']
      simp
    · simp [Out.append, plainOut, attrOut]; exact ⟨fun _ _ => rfl, rfl⟩

theorem render_part (p : WPart) :
    Renders ((rn (n + 1)) wPart (partOf p) (some nsWsdl) true) (PartWrites p) (plainOut ((py"name", py"body") :: p.ref) []) := by
  have key : ∀ e t : Option Str, Renders ((rn (n + 1)) wPart (partV e t) (some nsWsdl) true)
      ((∀ a, e = some a → XmlOk a) ∧ (∀ a, t = some a → XmlOk a))
      (plainOut ((py"name", py"body") :: (optAttr py"element" e ++ optAttr py"type" t)) []) := by
    intro e t
    refine (renders_cons (v := optStr (some py"body")) rfl (renders_strAttr py"name" true (some py"body")) <|
      renders_cons rfl (renders_strAttr py"element" false e) <|
      renders_cons rfl (renders_strAttr py"type" false t) renders_nil).congr' ?_ fun _ => ?_
    · have : XmlOk py"body" := by decide
      simp [this]
    · cases e <;> cases t <;> rfl
  have hs : XmlOk py"sns:" := by decide
  cases p with
  | element a => exact (key _ _).congr (by rw [PartWrites]; simp only [Option.some.injEq, forall_eq', xmlOk_append]; simp [hs])
  | cls a => exact (key _ _).congr (by rw [PartWrites]; simp only [Option.some.injEq, forall_eq', xmlOk_append]; simp [hs])
  | none => exact (key none none).congr (by simp [PartWrites])

theorem render_message (name : Str) (p : WPart) :
    Renders ((rn (n + 2)) wMessage (messageV v name (partOf p)) (some nsWsdl) true) (XmlOk name ∧ PartWrites p)
      (plainOut [(py"name", name)] [wsdlNode py"part" ((py"name", py"body") :: p.ref) []]) := by
  have hn := renders_strAttr (T := specTable v) (rc := rn (n + 1)) (ns := some nsWsdl) (q := true) py"name" true (some name)
  have hl := renders_list (T := specTable v) (rc := rn (n + 1)) (ns := some nsWsdl) (q := true)
    (f := listOf py"parts" py"part" wPart (some 0)) (c := wPart) (val := partOf) (l := [p]) (t := false)
    rfl rfl (.inr rfl) rfl (fun p => by cases p <;> exact ⟨_, _, _, rfl⟩) (fun p => render_part v n p)
  cases v
  · refine (renders_cons (v := optStr (some name)) rfl hn <| renders_cons rfl hl <|
      renders_cons rfl (render_doc _ _ _ _) renders_nil).congr' ?_ fun _ => ?_
    · simp
    · cases p <;> rfl
  · refine (renders_cons (v := optStr (some name)) rfl hn <| renders_cons rfl (render_doc _ _ _ _) <|
      renders_cons rfl hl renders_nil).congr' ?_ fun _ => ?_
    · simp
    · cases p <;> rfl

theorem render_types (gs : List GSchema) (hb : ∀ g ∈ gs, Buildable g) :
    Renders ((rn (n + 9)) wTypes (typesV (gs.map describe)) (some nsWsdl) true) (∀ g ∈ gs, Writable g)
      (plainOut [] (gs.map document)) := by
  have hl := renders_list_mem (T := specTable v) (rc := rn (n + 8)) (ns := some nsWsdl) (q := true)
    (f := listOf py"schemas" py"schema" xSchema none (some nsXsd)) (c := xSchema) (val := describe) (l := gs) (t := false)
    rfl rfl (.inl rfl) rfl (fun _ => ⟨_, _, _, rfl⟩) (fun g hg => render_schema v n g (hb g hg))
  refine (renders_cons rfl hl <| renders_cons rfl (render_doc _ _ _ _) renders_nil).congr' (by simp) fun _ => ?_
  simp [-List.append_assoc, Out.append, plainOut]
  intro g _
  unfold document formText
  cases g.qualified <;> rfl

theorem message_pairs (ms : List WMethod) : ms.flatMap (messagesOf v) =
    (ms.flatMap fun m => [(m.operationName ++ py"Input", m.input), (m.operationName ++ py"Output", m.output)]).map
      fun p => messageV v p.1 (partOf p.2) := by
  induction ms with
  | nil => rfl
  | cons m ms ih => simp [ih, messagesOf]

theorem render_definitions (s : WService) (hb : WsdlBuildable s) :
    Renders ((rn (n + 10)) wDefinitions (definitionsOf v s) (some nsWsdl) true) (WsdlWritable s)
      (plainOut [(py"targetNamespace", s.targetNamespace)]
        ([wsdlNode py"types" [] (s.schemas.map document)] ++ s.methods.flatMap messagesDoc ++ [portTypeDoc s] ++
          [bindingDoc v s] ++ [serviceDoc v s])) := by
  have hn := renders_strAttr (T := specTable v) (rc := rn (n + 9)) (ns := some nsWsdl) (q := true) py"name" false none
  have ht := renders_strAttr (T := specTable v) (rc := rn (n + 9)) (ns := some nsWsdl) (q := true) py"targetNamespace" false
    (some s.targetNamespace)
  have hi := render_headers (specTable v) (rn (n + 9)) (some nsWsdl) true py"imports" py"import" wImport (some 0) (.inr rfl) none
  have hy := renders_elem (T := specTable v) (f := elem py"types" wTypes false) (ns := some nsWsdl) (q := true)
    (c := wTypes) rfl rfl (render_types v n s.schemas hb.1)
  have hm := renders_list (T := specTable v) (rc := rn (n + 9)) (ns := some nsWsdl) (q := true)
    (f := listOf py"messages" py"message" wMessage (some 0)) (c := wMessage)
    (val := fun p : Str × WPart => messageV v p.1 (partOf p.2))
    (l := s.methods.flatMap fun m => [(m.operationName ++ py"Input", m.input), (m.operationName ++ py"Output", m.output)])
    (t := true) rfl rfl (.inr rfl) rfl
    (fun _ => by unfold messageV; cases v <;> exact ⟨_, _, _, rfl⟩) (fun p => render_message v (n + 7) p.1 p.2)
  rw [← message_pairs] at hm
  have hp := renders_list (T := specTable v) (rc := rn (n + 9)) (ns := some nsWsdl) (q := true)
    (f := listOf py"portTypes" py"portType" wPortType (some 0)) (c := wPortType) (val := fun _ : Unit => portTypeOf v s)
    (l := [()]) (t := true) rfl rfl (.inr rfl) rfl
    (fun _ => by unfold portTypeOf portTypeV; cases v <;> exact ⟨_, _, _, rfl⟩) (fun _ => render_portType v (n + 5) s)
  have hbi := renders_list (T := specTable v) (rc := rn (n + 9)) (ns := some nsWsdl) (q := true)
    (f := listOf py"bindings" py"binding" wBinding (some 0)) (c := wBinding) (val := fun _ : Unit => bindingOf v s)
    (l := [()]) (t := true) rfl rfl (.inr rfl) rfl
    (fun _ => by unfold bindingOf bindingV; cases v <;> exact ⟨_, _, _, rfl⟩)
    (fun _ => render_binding v (n + 5) s fun m hm => (hb.2 m hm).2.2)
  have hse := renders_list (T := specTable v) (rc := rn (n + 9)) (ns := some nsWsdl) (q := true)
    (f := listOf py"services" py"service" wService (some 0)) (c := wService) (val := fun _ : Unit => serviceOf v s)
    (l := [()]) (t := true) rfl rfl (.inr rfl) rfl
    (fun _ => by unfold serviceOf serviceV; cases v <;> exact ⟨_, _, _, rfl⟩)
    (fun _ => render_service v (n + 6) s.name _ _ s.location)
  have hcond : (((∀ a ∈ s.methods.flatMap fun m => [(m.operationName ++ py"Input", m.input),
      (m.operationName ++ py"Output", m.output)], XmlOk a.1 ∧ PartWrites a.2) ∧
      (XmlOk s.name ∧ ∀ m ∈ s.methods, XmlOk m.operationName) ∧
      (XmlOk s.name ∧ ∀ m ∈ s.methods, XmlOk m.operationName ∧ ∀ a, m.soapAction = some a → XmlOk a) ∧
      (XmlOk s.name ∧ XmlOk (s.name ++ py"Port") ∧ XmlOk (py"tns:" ++ s.name ++ py"Binding") ∧
        ∃ l, s.location = some l ∧ XmlOk l)) ∧ XmlOk s.targetNamespace ∧ ∀ g ∈ s.schemas, Writable g) ↔ WsdlWritable s := by
    have hx : XmlOk (s.name ++ py"Port") ↔ XmlOk s.name := by
      rw [xmlOk_append]; exact ⟨fun h => h.1, fun h => ⟨h, by decide⟩⟩
    have hI : ∀ a, XmlOk (a ++ py"Input") ↔ XmlOk a := fun a => by
      rw [xmlOk_append]; exact ⟨fun h => h.1, fun h => ⟨h, by decide⟩⟩
    have hO : ∀ a, XmlOk (a ++ py"Output") ↔ XmlOk a := fun a => by
      rw [xmlOk_append]; exact ⟨fun h => h.1, fun h => ⟨h, by decide⟩⟩
    rw [hx, xmlOk_tns py"tns:" s.name (by decide) py"Binding" (by decide)]
    unfold WsdlWritable MethodWrites
    constructor
    · rintro ⟨⟨h1, ⟨h2, h3⟩, ⟨_, h4⟩, _, _, _, h5⟩, h6, h7⟩
      refine ⟨h6, h2, h5, h7, fun m hm => ⟨h3 m hm, (h4 m hm).2, ?_, ?_⟩⟩
      · exact (h1 (_, _) (List.mem_flatMap.2 ⟨m, hm, List.mem_cons_self ..⟩)).2
      · exact (h1 (_, _) (List.mem_flatMap.2 ⟨m, hm, List.mem_cons_of_mem _ (List.mem_cons_self ..)⟩)).2
    · rintro ⟨h6, h2, h5, h7, h8⟩
      refine ⟨⟨?_, ⟨h2, fun m hm => (h8 m hm).1⟩, ⟨h2, fun m hm => ⟨(h8 m hm).1, (h8 m hm).2.1⟩⟩, h2, h2, h2, h5⟩, h6, h7⟩
      intro a ha
      obtain ⟨m, hm, ha⟩ := List.mem_flatMap.1 ha
      rcases List.mem_cons.1 ha with rfl | ha
      · exact ⟨(hI _).2 (h8 m hm).1, (h8 m hm).2.2.1⟩
      · rw [List.mem_singleton] at ha; subst ha
        exact ⟨(hO _).2 (h8 m hm).1, (h8 m hm).2.2.2⟩
  have hmd : (s.methods.flatMap fun m => [(m.operationName ++ py"Input", m.input), (m.operationName ++ py"Output", m.output)]).map
      (fun a => mkElem ⟨some nsWsdl, py"message"⟩ (plainOut [(py"name", a.1)]
        [wsdlNode py"part" ((py"name", py"body") :: a.2.ref) []]) none) = s.methods.flatMap messagesDoc := by
    induction s.methods with
    | nil => rfl
    | cons m ms ih => simp [ih, messagesDoc]; exact ⟨rfl, rfl⟩
  rw [← hmd]
  cases v
  · refine (renders_cons rfl hn <| renders_cons (v := optStr (some s.targetNamespace)) rfl ht <| renders_cons rfl hi <|
      renders_cons rfl hy <| renders_cons rfl hm <| renders_cons rfl hp <| renders_cons rfl hbi <|
      renders_cons rfl hse <| renders_cons rfl (render_doc _ _ _ _) renders_nil).congr' ?_ fun _ => ?_
    · rw [← hcond]
      simp
      grind
    · simp [Out.append, plainOut, attrOut]
      exact ⟨rfl, rfl⟩
  · refine (renders_cons rfl hn <| renders_cons (v := optStr (some s.targetNamespace)) rfl ht <|
      renders_cons rfl (render_doc _ _ _ _) <| renders_cons rfl hi <|
      renders_cons rfl hy <| renders_cons rfl hm <| renders_cons rfl hp <| renders_cons rfl hbi <|
      renders_cons rfl hse renders_nil).congr' ?_ fun _ => ?_
    · rw [← hcond]
      simp
      grind
    · simp [Out.append, plainOut, attrOut]
      exact ⟨rfl, rfl⟩

end

end Soapfish
