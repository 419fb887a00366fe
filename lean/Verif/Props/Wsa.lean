import Verif.Wsa
import Verif.CallLemmas
/-
WS-Addressing headers (C70).
-/
namespace Soapfish

/-- The class has a String element of this name. -/
def StringField (T : Table) (c : ClsId) (name : Str) : Prop :=
  ∃ f, findField (T c).fields name = .ok f ∧ f.kind = .element ∧ f.type = .simple (.string {})

theorem set_string {T : Table} {nw : ClsId → Except Exn Val} {c : ClsId} {name : Str} (h : StringField T c name)
    (fs : List (Str × Val)) (x : Option Xml) (s : Str) :
    setAttr T nw (.inst c fs x) name (.atom (.str s)) = .ok (.inst c (Dict.set fs name (.atom (.str s))) x) := by
  obtain ⟨f, h1, h2, h3⟩ := h
  unfold setAttr
  simp only [h1, Except_ok_bind, Field.accept, h2, h3, evaluate, Field.acceptItem]
  rfl

/-- **C70 (reply).** A header filled from a request header with an action and an identifier has the action plus
'Response', relates to the identifier, has an identifier of its own and the anonymous address; its other fields stay. -/
theorem C70_reply (T : Table) (nw : ClsId → Except Exn Val) (c c' : ClsId) (fs fs' : List (Str × Val))
    (x x' : Option Xml) (uid a i : Str)
    (hc : ∀ n ∈ [py"Action", py"RelatesTo", py"MessageID", py"To"], StringField T c n)
    (ha : Dict.get? fs' py"Action" = some (.atom (.str a))) (hi : Dict.get? fs' py"MessageID" = some (.atom (.str i))) :
    ∃ new, fillHeader T nw (.inst c fs x) (.inst c' fs' x') uid = .ok (.inst c new x) ∧
      Dict.get? new py"Action" = some (.atom (.str (a ++ py"Response"))) ∧
      Dict.get? new py"RelatesTo" = some (.atom (.str i)) ∧
      Dict.get? new py"MessageID" = some (.atom (.str uid)) ∧
      Dict.get? new py"To" = some (.atom (.str py"http://www.w3.org/2005/08/addressing/anonymous")) ∧
      ∀ k, k ∉ [py"Action", py"RelatesTo", py"MessageID", py"To"] → Dict.get? new k = Dict.get? fs k := by
  have e1 : Val.getA (.inst c' fs' x') py"Action" = .ok (.atom (.str a)) := by
    show getAttr fs' _ = _
    unfold getAttr
    rw [ha]
  have e2 : Val.getA (.inst c' fs' x') py"MessageID" = .ok (.atom (.str i)) := by
    show getAttr fs' _ = _
    unfold getAttr
    rw [hi]
  refine ⟨Dict.set (Dict.set (Dict.set (Dict.set fs py"Action" (.atom (.str (a ++ py"Response")))) py"RelatesTo"
    (.atom (.str i))) py"MessageID" (.atom (.str uid))) py"To" (.atom (.str wsaAnonymous)), ?_, ?_, ?_, ?_, ?_, ?_⟩
  · unfold fillHeader fillFrom
    simp only [Val.isNone, Bool.false_eq_true, if_false, e1, e2, Except_ok_bind, plusResponse]
    rw [set_string (hc py"Action" (by simp))]
    simp only [Except_ok_bind]
    rw [set_string (hc py"RelatesTo" (by simp))]
    simp only [Except_ok_bind]
    rw [set_string (hc py"MessageID" (by simp))]
    simp only [Except_ok_bind]
    rw [set_string (hc py"To" (by simp))]
  · rw [get_set_other _ _ _ _ (by decide), get_set_other _ _ _ _ (by decide), get_set_other _ _ _ _ (by decide),
      get_set_self]
  · rw [get_set_other _ _ _ _ (by decide), get_set_other _ _ _ _ (by decide), get_set_self]
  · rw [get_set_other _ _ _ _ (by decide), get_set_self]
  · rw [get_set_self]; rfl
  · intro k hk
    simp only [List.mem_cons, List.not_mem_nil, or_false, not_or] at hk
    rw [get_set_other _ _ _ _ hk.2.2.2, get_set_other _ _ _ _ hk.2.2.1, get_set_other _ _ _ _ hk.2.1,
      get_set_other _ _ _ _ hk.1]

/-- **C70 (first message).** Without a request header only the identifier and the address are set. -/
theorem C70_first (T : Table) (nw : ClsId → Except Exn Val) (c : ClsId) (fs : List (Str × Val)) (x : Option Xml)
    (uid : Str) (hc : ∀ n ∈ [py"MessageID", py"To"], StringField T c n) :
    ∃ new, fillHeader T nw (.inst c fs x) Val.none uid = .ok (.inst c new x) ∧
      Dict.get? new py"MessageID" = some (.atom (.str uid)) ∧
      Dict.get? new py"To" = some (.atom (.str py"http://www.w3.org/2005/08/addressing/anonymous")) ∧
      ∀ k, k ∉ [py"MessageID", py"To"] → Dict.get? new k = Dict.get? fs k := by
  refine ⟨Dict.set (Dict.set fs py"MessageID" (.atom (.str uid))) py"To" (.atom (.str wsaAnonymous)), ?_, ?_, ?_, ?_⟩
  · unfold fillHeader
    simp only [Val.isNone, if_true, Except_ok_bind, Val.none]
    rw [set_string (hc py"MessageID" (by simp))]
    simp only [Except_ok_bind]
    rw [set_string (hc py"To" (by simp))]
  · rw [get_set_other _ _ _ _ (by decide), get_set_self]
  · rw [get_set_self]; rfl
  · intro k hk
    simp only [List.mem_cons, List.not_mem_nil, or_false, not_or] at hk
    rw [get_set_other _ _ _ _ hk.2, get_set_other _ _ _ _ hk.1]

/-- **C70 (no action).** A request header whose action is not set is a TypeError. -/
theorem C70_no_action (T : Table) (nw : ClsId → Except Exn Val) (dst : Val) (c' : ClsId) (fs' : List (Str × Val))
    (x' : Option Xml) (uid : Str) (ha : Dict.get? fs' py"Action" = some Val.none) :
    fillHeader T nw dst (.inst c' fs' x') uid = .error .typeError := by
  have e1 : Val.getA (.inst c' fs' x') py"Action" = .ok Val.none := by
    show getAttr fs' _ = _
    unfold getAttr
    rw [ha]
  unfold fillHeader fillFrom
  simp only [Val.isNone, Bool.false_eq_true, if_false, e1, Except_ok_bind, plusResponse, Val.none]
  rfl

/-- **C70 (class).** The header class of the library has the fields. -/
theorem C70_class (T : Table) (c r : ClsId) (h : (T c).fields = wsaHeader r) :
    ∀ n ∈ [py"Action", py"RelatesTo", py"MessageID", py"To"], StringField T c n := by
  intro n hn
  simp only [List.mem_cons, List.not_mem_nil, or_false] at hn
  unfold StringField
  rw [h]
  rcases hn with rfl | rfl | rfl | rfl <;> exact ⟨_, rfl, rfl, rfl⟩

/-- An element of the WS-Addressing namespace with a text, or none for None. -/
def wsaElements (name : Str) : Option Str → List Xml
  | none => []
  | some t => [.elem ⟨some py"http://www.w3.org/2005/08/addressing", name⟩ [] (some t) []]

/-- A text or None. -/
def textOrNone : Option Str → Val
  | none => Val.none
  | some t => .atom (.str t)

theorem renderField_wsa {T : Table} {rc : RenderCls} {name : Str} {tagname : Option Str} {req : Bool} {t : Option Str} {ns : Option Str}
    (htag : (wsaField name tagname req).tag = name) (ht : ∀ s, t = some s → XmlOk s) :
    renderField T rc (wsaField name tagname req) (textOrNone t) ns true = .ok { kids := wsaElements name t } := by
  cases t with
  | none => rfl
  | some s =>
    have hx : xmlText s = .ok s := xmlText_of (ht s rfl)
    have h1 : (SType.string {}).xmlvalue (Atom.str s) = .ok (some s) := rfl
    unfold renderField
    simp only [wsaField, textOrNone, Val.isNone, Bool.false_eq_true, if_false]
    simp only [wsaField] at htag
    simp only [htag, renderChild, Val.isNil, Bool.false_eq_true, if_false, renderType, Val.toAtom, h1, Except_ok_bind, optText, hx]
    rfl

/-- **C70 (written).** The header class of the library writes one element of the WS-Addressing namespace for each field that is
set, in the order of the fields; the address to reply to is an element of its own inside ReplyTo. -/
theorem C70_written (T : Table) (n : Nat) (c r : ClsId) (hc : (T c).fields = wsaHeader r) (hr : (T r).fields = wsaReplyTo)
    (hp : (T c).header = false ∧ (T r).header = false) (action identifier dest relates : Option Str) (reply : Option (Option Str))
    (x y : Option Xml) (ns : Option Str)
    (hok : ∀ t, some t ∈ [action, identifier, dest, relates, reply.getD none] → XmlOk t) :
    renderCls T (n + 2) c (.inst c [(py"Action", textOrNone action), (py"MessageID", textOrNone identifier), (py"To", textOrNone dest),
        (py"ReplyTo", match reply with
          | none => Val.none
          | some a => .inst r [(py"Address", textOrNone a)] y), (py"RelatesTo", textOrNone relates)] x) ns true =
      .ok { kids := wsaElements py"Action" action ++ (wsaElements py"MessageID" identifier ++ (wsaElements py"To" dest ++ ((match reply with
          | none => []
          | some a => [.elem ⟨some py"http://www.w3.org/2005/08/addressing", py"ReplyTo"⟩ [] none (wsaElements py"Address" a)]) ++
          wsaElements py"RelatesTo" relates))) } := by
  have g : ∀ (rc : RenderCls) (ns : Option Str) (f : Field) (fs : List Field) (vals : List (Str × Val)) (v : Val) (o os : Out),
      getAttr vals f.name = .ok v → renderField T rc f v ns true = .ok o → renderFields T rc vals ns true fs = .ok os →
      renderFields T rc vals ns true (f :: fs) = .ok (o.append os) := by
    intro rc ns f fs vals v o os e1 e2 e3
    simp only [renderFields, e1, e2, e3, Except_ok_bind]
  rw [renderCls]
  simp only [hp.1, Bool.false_eq_true, false_and, if_false, hc]
  generalize innerNs T c ns = ns'
  have h1 := renderField_wsa (T := T) (rc := renderCls T (n + 1)) (name := py"Action") (tagname := some py"Action") (req := true) (t := action)
    (ns := ns') rfl fun s hs => hok s (by simp [hs])
  have h2 := renderField_wsa (T := T) (rc := renderCls T (n + 1)) (name := py"MessageID") (tagname := some py"MessageID") (req := true)
    (t := identifier) (ns := ns') rfl fun s hs => hok s (by simp [hs])
  have h3 := renderField_wsa (T := T) (rc := renderCls T (n + 1)) (name := py"To") (tagname := some py"To") (req := true) (t := dest)
    (ns := ns') rfl fun s hs => hok s (by simp [hs])
  have h5 := renderField_wsa (T := T) (rc := renderCls T (n + 1)) (name := py"RelatesTo") (tagname := none) (req := false) (t := relates)
    (ns := ns') rfl fun s hs => hok s (by simp [hs])
  have h4 : renderField T (renderCls T (n + 1)) (Field.mk py"ReplyTo" .element (.complex r) (some py"ReplyTo") false Val.none (some nsWsa)
      false none none)
      (match reply with
        | none => Val.none
        | some a => .inst r [(py"Address", textOrNone a)] y) ns' true =
      .ok { kids := match reply with
        | none => []
        | some a => [.elem ⟨some py"http://www.w3.org/2005/08/addressing", py"ReplyTo"⟩ [] none (wsaElements py"Address" a)] } := by
    cases reply with
    | none => rfl
    | some a =>
      have h6 := renderField_wsa (T := T) (rc := renderCls T n) (name := py"Address") (tagname := some py"Address") (req := true) (t := a)
        (ns := innerNs T r (some nsWsa)) rfl fun s hs => hok s (by simp [hs])
      have h7 : renderCls T (n + 1) r (.inst r [(py"Address", textOrNone a)] y) (some nsWsa) true = .ok { kids := wsaElements py"Address" a } := by
        rw [renderCls]
        simp only [hp.2, Bool.false_eq_true, false_and, if_false, hr, wsaReplyTo]
        rw [g _ _ _ _ _ _ _ _ rfl h6 rfl]
        simp [Out.append]
      simp only [renderField, Val.isNone, Bool.false_eq_true, if_false, renderChild, Val.isNil, renderType, childNs, h7, Except_ok_bind]
      rfl
  unfold wsaHeader
  rw [g _ _ _ _ _ _ _ _ rfl h1 (g _ _ _ _ _ _ _ _ rfl h2 (g _ _ _ _ _ _ _ _ rfl h3 (g _ _ _ _ _ _ _ _ rfl h4 (g _ _ _ _ _ _ _ _ rfl h5 rfl))))]
  simp [Out.append]

/-- A header with an action and an address to reply to. -/
example : renderCls (fun c => if c = 8 then { name := py"ReplyTo", mro := [8, 0], fields := wsaReplyTo }
      else { name := py"Header", mro := [c, 0], fields := wsaHeader 8 }) 2 9
    (.inst 9 [(py"Action", .atom (.str py"urn:x/hello")), (py"MessageID", Val.none), (py"To", Val.none),
      (py"ReplyTo", .inst 8 [(py"Address", .atom (.str py"urn:me"))] none), (py"RelatesTo", Val.none)] none) none true =
    .ok { kids := [.elem ⟨some py"http://www.w3.org/2005/08/addressing", py"Action"⟩ [] (some py"urn:x/hello") [],
      .elem ⟨some py"http://www.w3.org/2005/08/addressing", py"ReplyTo"⟩ [] none
        [.elem ⟨some py"http://www.w3.org/2005/08/addressing", py"Address"⟩ [] (some py"urn:me") []]] } :=
  C70_written _ 0 9 8 rfl rfl ⟨rfl, rfl⟩ (some py"urn:x/hello") none none none (some (some py"urn:me")) none none none (by
    intro t ht
    simp only [List.mem_cons, List.not_mem_nil, or_false, Option.some.injEq, Option.getD_some, reduceCtorEq, false_or] at ht
    rcases ht with rfl | rfl <;> (unfold XmlOk; decide))

/-- A reply to a request; ReplyTo stays. -/
example : fillHeader (fun c => if c = 8 then { name := py"ReplyTo", mro := [8, 0], fields := wsaReplyTo }
      else { name := py"Header", mro := [c, 0], fields := wsaHeader 8 }) (fun _ => .ok Val.none)
    (.inst 9 [(py"Action", Val.none), (py"MessageID", Val.none), (py"To", Val.none), (py"ReplyTo", .nil),
      (py"RelatesTo", Val.none)] none)
    (.inst 9 [(py"Action", .atom (.str py"urn:x/Hello")), (py"MessageID", .atom (.str py"m1"))] none) py"m2" =
    .ok (.inst 9 [(py"Action", .atom (.str py"urn:x/HelloResponse")), (py"MessageID", .atom (.str py"m2")),
      (py"To", .atom (.str py"http://www.w3.org/2005/08/addressing/anonymous")), (py"ReplyTo", .nil),
      (py"RelatesTo", .atom (.str py"m1"))] none) := by rfl

end Soapfish
