import Verif.Spec.Rely
import Verif.Props.Dispatch
import Verif.Props.Parse
import Verif.Props.Schemas
/-
C99: what a method can rely on about its input.
-/
namespace Soapfish

theorem firstE_found {α β} {f : α → Except Exn (Option β)} : ∀ {l : List α} {b : β}, firstE f l = .ok (some b) → ∃ a ∈ l, f a = .ok (some b)
  | [], _, h => by cases h
  | a :: l, b, h => by
    unfold firstE at h
    obtain ⟨o, h1, h2⟩ := bind_eq_ok.1 h
    cases o with
    | some b' => exact ⟨a, List.mem_cons_self, by rw [h1]; exact h2⟩
    | none =>
      obtain ⟨a', ha, hf⟩ := firstE_found h2
      exact ⟨a', List.mem_cons_of_mem _ ha, hf⟩

theorem elementByName_offered {W : World} {S : Service} {name : Str} : ∀ n s {e}, OfService W S s → elementByName W name n s = .ok (some e) →
    ∃ s', OfService W S s' ∧ SchemaDeclares W s' name e
  | 0, _, _, _, h => by cases h
  | n + 1, s, e, hs, h => by
    unfold elementByName at h
    split at h
    · next e' he =>
      injection h with h
      injection h with h
      subst h
      exact ⟨s, hs, he⟩
    · obtain ⟨s', hs', h⟩ := firstE_found h
      refine elementByName_offered n s' ?_ h
      rcases hs with hs | hs
      · exact .inr (.root hs (List.mem_append.1 hs'))
      · exact .inr (.next hs (List.mem_append.1 hs'))

theorem findElement_offered {W : World} {S : Service} {name : Str} {e : SElem} (h : S.findElement W name = .ok (some e)) :
    ∃ s, OfService W S s ∧ SchemaDeclares W s name e := by
  obtain ⟨s, hs, h⟩ := firstE_found h
  exact elementByName_offered _ s (.inl hs) h

theorem named_claimed {f : Field} {y : Xml} (h : y.Named f.tag) : f.Claims y := by
  obtain ⟨q, a, t, k, rfl, hq⟩ := h
  refine ⟨q, a, t, k, rfl, ?_⟩
  rw [hq]
  unfold Field.tag
  split
  · next h => exact .inr h
  · exact .inl rfl

theorem lastClaimed_exists {f : Field} : ∀ {ks : List Xml}, (∃ y ∈ ks, f.Claims y) → ∃ y, LastClaimed f ks y
  | [], ⟨_, h, _⟩ => by cases h
  | k :: ks, h => by
    by_cases h' : ∃ y ∈ ks, f.Claims y
    · obtain ⟨y, pre, post, rfl, h1, h2⟩ := lastClaimed_exists h'
      exact ⟨y, k :: pre, post, rfl, h1, h2⟩
    · obtain ⟨y, hy, hc⟩ := h
      rcases List.mem_cons.1 hy with rfl | hy
      · exact ⟨y, [], ks, rfl, hc, fun z hz hc => h' ⟨z, hz, hc⟩⟩
      · exact absurd ⟨y, hy, hc⟩ h'

/-- **C99 (without SOAP action).** If a method is called for a request without SOAP action, every required element of its input
has been read from a child of the message. -/
theorem C99_required (W : World) (d : DispId) (r : ReqId) (s : State) (m : MethodId) (r' : ReqId) (q : Req) (v : Val)
    (hcall : Event.method m r' q v ∈ happened (dispatch W d r) s) :
    ∃ d' x, q.dispatcher = some d' ∧ Checked W (W.disp d') q.content x ∧
      ∀ n c e, (∀ a, ¬ HasAction (W.disp d').service q.environ a) → ChecksRequired W (W.disp d') → ProperGroups W (W.disp d').service →
        (∀ n, OneType W (W.disp d').service n) → (∀ s n e, OfService W (W.disp d').service s → SchemaDeclares W s n e → ∃ c, e.type = .complex c) →
        (W.table (W.disp d').service).Wf → (W.method m).input = .name n →
        (W.disp d').service.findElement W n = .ok (some e) → e.type = .complex c → (W.table (W.disp d').service c).choice = false →
        ∀ f ∈ (W.table (W.disp d').service c).fields, f.kind = .element → f.required = true →
          ∃ y w, LastClaimed f x.kids y ∧ v.attr f.name = some w ∧
            ReadAs (W.table (W.disp d').service) W.depth (W.depth - 1) f y w := by
  obtain ⟨d', x, root, hd, hchk, hroot, hm, hv⟩ := C40_only_checked W d r s _ hcall
  refine ⟨d', x, hd, hchk, fun n c e hact hsound hgroups hone hcls hwf hin hfind hty hch f hf hk hreq => ?_⟩
  obtain ⟨_, _, _, _, _, _, hval, _⟩ := hchk
  obtain ⟨qx, a, t, k, ty, rfl, ⟨sx, ex, hsx, hdx, _, hex⟩, hreqd⟩ := hsound x hval
  obtain ⟨_, _, _, _, hq, hq'⟩ := hroot
  cases hq
  subst hq'
  obtain ⟨sn, hsn, hdn⟩ := findElement_offered hfind
  -- the class of the element that was checked
  have hhas : ∃ y ∈ k, f.Claims y := by
    cases hm with
    | action h => exact absurd h (hact _)
    | input _ hfirst =>
      obtain ⟨_, _, _, hmi, _⟩ := hfirst
      rw [hin] at hmi
      injection hmi with hmi
      subst hmi
      have := hone _ sx sn ex e hsx hsn hdx hdn
      rw [hty, hex] at this
      obtain ⟨y, hy, hn⟩ := hreqd c this f hf hk hreq
      exact ⟨y, hy, named_claimed hn⟩
    | @substitution _ s' e' g n' _ _ hs' he' hg hc hfirst =>
      obtain ⟨_, _, _, hmi, _⟩ := hfirst
      rw [hin] at hmi
      injection hmi with hmi
      subst hmi
      obtain ⟨pre, post, hl, _, _⟩ := hs'
      have hs'' : OfService W (W.disp d').service s' := .inl (by rw [hl]; simp)
      obtain ⟨c', hc'⟩ := hcls s' _ e' hs'' he'
      have := hone _ sx s' ex e' hsx hs'' hdx he'
      rw [hc', hex] at this
      have hf' := hgroups sn s' n qx.loc e e' g c c' hsn hs'' hdn he' hg hc hty hc' f hf
      obtain ⟨y, hy, hn⟩ := hreqd c' this f hf' hk hreq
      exact ⟨y, hy, named_claimed hn⟩
  obtain ⟨y, hy⟩ := lastClaimed_exists hhas
  obtain ⟨pre, post, rfl, hyc, hpost⟩ := id hy
  cases hv with
  | @element n2 e2 _ h1 h2 h3 =>
    rw [hin] at h1
    injection h1 with h1
    subst h1
    rw [hfind] at h2
    injection h2 with h2
    injection h2 with h2
    subst h2
    rw [hty] at h3
    change parseCls (W.table (W.disp d').service) W.depth W.depth c _ = _ at h3
    cases hdep : W.depth with
    | zero => rw [hdep] at h3; cases h3
    | succ N =>
      rw [hdep] at h3
      obtain ⟨w, h4, h5⟩ := C29_last_occurrence _ hwf (N + 1) N c hch qx a t pre post y f hf (.inl hk) hyc hpost v h3
      exact ⟨y, w, hy, h4, h5⟩
  | cls h1 => rw [hin] at h1; cases h1

theorem findSub_unclaimed {f : Field} : ∀ {ks : List Xml}, Xml.pi ∉ ks → (∀ y ∈ ks, ¬ f.Claims y) → findSub f ks = .ok []
  | [], _, _ => rfl
  | k :: ks, hp, h => by
    rw [findSub_skip (h k List.mem_cons_self) (fun e => hp (by rw [e]; exact List.mem_cons_self))]
    exact findSub_unclaimed (fun hm => hp (List.mem_cons_of_mem _ hm)) fun y hy => h y (List.mem_cons_of_mem _ hy)

/-- **C99 (unchecked input).** A message that is valid as some other element gets the method called, though none of the fields of
the method's input is there, required ones included.  It only has to be sent with the SOAP action of the method, or to have the
local name of the method's input. -/
theorem C99_unchecked (W : World) (d : DispId) (r : ReqId) (s : State) (q : Req) (doc : Xml) (n : Str) (c : ClsId) (e : SElem)
    (m : MethodId) (f : ReqId → Val → Prog Empty Ret) (qx : QName) (as : List (QName × Str)) (t : Option Str) (ks : List Xml)
    (v0 : Val) (hq : s.reqs[r]? = some q)
    (hpost : IsPost q) (hmid : (W.disp d).middlewares = []) (hhook : (W.disp d).hooks.get? py"soap-request" = none)
    (hD : 4 ≤ W.depth) (hr : W.read q.content = some doc) (hp : PlainMessage doc none (.elem qx as t ks))
    (hx : (W.disp d).validator (.elem qx as t ks) = .ok ()) (hm : Handles W (W.disp d).service q.environ qx.loc m) (hf : (W.method m).function = some f)
    (hin : (W.method m).input = .name n) (hfind : (W.disp d).service.findElement W n = .ok (some e)) (hty : e.type = .complex c)
    (hwf : (W.table (W.disp d).service).Wf) (hch : (W.table (W.disp d).service c).choice = false)
    (hnew : newInst (W.table (W.disp d).service) W.depth c = .ok v0)
    (hkinds : ∀ g ∈ (W.table (W.disp d).service c).fields, g.kind = .element ∨ g.kind = .classNamed ∨ g.kind = .list)
    (hpi : Xml.pi ∉ ks) (hother : ∀ g ∈ (W.table (W.disp d).service c).fields, ∀ y ∈ ks, ¬ g.Claims y) :
    ∃ q' v, (happened (dispatch W d r) s).head? = some (.method m r q' v) ∧
      ∀ g ∈ (W.table (W.disp d).service c).fields, ∃ w, v.attr g.name = some w ∧ EmptyValue (W.table (W.disp d).service) g w := by
  obtain ⟨N, hN⟩ : ∃ N, W.depth = N + 1 := ⟨W.depth - 1, by omega⟩
  have hparse : ∃ v, parseCls (W.table (W.disp d).service) W.depth W.depth c (.elem qx as t ks) = .ok v := by
    obtain ⟨_, es, _, rfl, hsh, hall⟩ := newInst_ok (hwf c) hnew
    rw [hN] at hnew ⊢
    refine ⟨.inst c es _, (parseCls_ok_iff (hwf c) hch).2 ⟨es, es, hnew, rfl, hsh, fun g hg => ?_⟩⟩
    obtain ⟨w, hw⟩ := hsh.get hg
    refine ⟨w, w, hw, ?_, hw⟩
    have := findSub_unclaimed hpi (hother g hg)
    rcases hkinds g hg with h | h | h <;> simp only [fieldVal, h, Xml.kids, this] <;> rfl
  obtain ⟨v, hv⟩ := hparse
  refine ⟨_, v, C38_C39_called W d r s q doc _ none qx.loc m Val.none v f hq hpost hmid hhook hD hr hp (by simp) hx
    ⟨_, _, _, _, rfl, rfl⟩ hm .missing (.element hin hfind ?_) hf, fun g hg => ?_⟩
  · rw [hty]; exact hv
  · rw [hN] at hv
    exact C32_missing_element _ hwf (N + 1) N c hch qx as t ks g hg (by rcases hkinds g hg with h | h | h <;> simp [h]) (hother g hg) v hv

/-! ### Examples -/

namespace ExRely
open ExS

/-- `<sayHelloResponse><greeting>hi</greeting></sayHelloResponse>` -/
def greeting : Xml := .elem ⟨some ns, py"sayHelloResponse"⟩ [] none [.elem ⟨none, py"greeting"⟩ [] (some py"hi") []]

/-- Validation of the three elements, each with its required child. -/
def checks : Xml → Except Exn Unit
  | .elem q _ _ [.elem q' _ _ _] =>
    if q = ⟨some ns, py"sayHelloResponse"⟩ ∧ q'.loc = py"greeting" then .ok ()
    else if (q = ⟨some ns, py"sayHello"⟩ ∨ q = ⟨some ns, py"sayHi"⟩) ∧ q'.loc = py"name" then .ok ()
    else .error .documentInvalid
  | _ => .error .documentInvalid

def checked : World := { world with
  disp := fun _ => { disp true with validator := checks }
  read := fun b => if b = [4] then some (envelope [bodyElem greeting]) else reader b }

theorem checked_sound : ChecksRequired checked (checked.disp 0) := by
  intro x hx
  change checks x = .ok () at hx
  unfold checks at hx
  split at hx
  · next q a t q' a' t' k' =>
    split at hx
    · next h =>
      obtain ⟨rfl, hq'⟩ := h
      refine ⟨_, _, _, _, .complex 9, rfl, ⟨0, _, .inl List.mem_cons_self, rfl, rfl, rfl⟩, fun c hc f hf _ _ => ?_⟩
      cases hc
      cases List.mem_singleton.1 hf
      exact ⟨_, List.mem_cons_self, _, _, _, _, rfl, hq'⟩
    · split at hx
      · next h =>
        obtain ⟨h, hq'⟩ := h
        refine ⟨_, _, _, _, .complex 8, rfl, ?_, fun c hc f hf _ _ => ?_⟩
        · rcases h with rfl | rfl <;> exact ⟨0, _, .inl List.mem_cons_self, rfl, rfl, rfl⟩
        · cases hc
          cases List.mem_singleton.1 hf
          exact ⟨_, List.mem_cons_self, _, _, _, _, rfl, hq'⟩
      · cases hx
  · cases hx

theorem declared_mem {α} {k : Str} {v : α} : ∀ {d : Dict α}, d.get? k = some v → (k, v) ∈ d
  | [], h => by cases h
  | (k', v') :: d, h => by
    unfold Dict.get? at h
    split at h
    · next hk => subst hk; injection h with h; subst h; exact List.mem_cons_self
    · exact List.mem_cons_of_mem _ (declared_mem h)

theorem checked_wf : (checked.table (checked.disp 0).service).Wf := by
  intro c
  show NamesNodup (soapTable .soap11 user c)
  unfold NamesNodup soapTable user
  split <;> first | decide | (split <;> simp)

/-- The answer of the service, sent back to it with the action of its method: `SayHello` is called without `name`. -/
example : ∃ q' v, (happened (dispatch checked 0 0) { reqs := [request py"POST" [4] [(py"SOAPACTION", py"\"urn:x/hello\"")]] }).head? =
    some (.method 0 0 q' v) ∧ v.attr py"name" = some Val.none := by
  obtain ⟨q', v, h1, h2⟩ := C99_unchecked checked 0 0 { reqs := [request py"POST" [4] [(py"SOAPACTION", py"\"urn:x/hello\"")]] } _ _
    py"sayHello" 8 _ 0 _ _ _ _ _ _ rfl rfl rfl rfl (by decide) rfl
    ⟨_, _, _, _, _, _, py"sayHelloResponse", rfl, rfl, by decide, ⟨_, _, _, _, rfl, rfl⟩, by decide, by decide, by simp⟩
    (show checks greeting = .ok () from rfl) (.action (a := py"urn:x/hello") ⟨by decide +kernel, by decide⟩ ⟨[], [], rfl, rfl, by simp⟩) rfl rfl rfl rfl checked_wf rfl rfl
    (fun g hg => by cases List.mem_singleton.1 hg; exact .inl rfl)
    (by simp) (fun g hg y hy => by
      cases List.mem_singleton.1 hg
      cases List.mem_singleton.1 hy
      rintro ⟨q, _, _, _, h, h'⟩
      cases h
      rcases h' with h' | h'
      · exact absurd h' (by decide)
      · cases h')
  obtain ⟨w, h3, h4⟩ := h2 { name := py"name", kind := .element, type := .simple (.string {}) } (List.mem_singleton.2 rfl)
  refine ⟨q', v, h1, ?_⟩
  rw [show v.attr py"name" = _ from h3]
  unfold EmptyValue at h4
  rw [if_neg (by decide)] at h4
  cases h4
  rfl

/-- Without action, `name` comes from the message. -/
example (m : MethodId) (r' : ReqId) (q : Req) (v : Val)
    (hcall : Event.method m r' q v ∈ happened (dispatch checked 0 0) { reqs := [request py"POST" [2]] })
    (ha : ∀ a, ¬ HasAction (checked.disp 0).service q.environ a) :
    ∃ (x : Xml) (y : Xml) (w : Val), LastClaimed { name := py"name", kind := .element, type := .simple (.string {}) } x.kids y ∧ v.attr py"name" = some w ∧
      ReadAs (checked.table (checked.disp 0).service) 10 9 { name := py"name", kind := .element, type := .simple (.string {}) } y w := by
  obtain ⟨d', x, h1, h2, h3⟩ := C99_required checked 0 0 _ m r' q v hcall
  have hdecl : ∀ s n e, SchemaDeclares checked s n e → (n, e) ∈ schema.elements := fun s n e h => declared_mem h
  have hel : ∀ n e, (n, e) ∈ schema.elements → (n = py"sayHello" ∧ e = { type := .complex 8 }) ∨
      (n = py"sayHelloResponse" ∧ e = { type := .complex 9 }) ∨ (n = py"sayHi" ∧ e = { type := .complex 8, substitutionGroup := some py"sns:sayHello" }) := by
    intro n e h
    simpa [schema] using h
  have hg : ProperGroups checked (checked.disp d').service := by
    intro s s' n n' e e' g c c' _ _ he he' hg hc h1 h2 f hf
    rcases hel _ _ (hdecl _ _ _ he') with ⟨rfl, rfl⟩ | ⟨rfl, rfl⟩ | ⟨rfl, rfl⟩
    · cases hg
    · cases hg
    · cases h2
      rcases hel _ _ (hdecl _ _ _ he) with ⟨rfl, rfl⟩ | ⟨rfl, rfl⟩ | ⟨rfl, rfl⟩
      · cases h1; exact hf
      · cases hg
        obtain ⟨_, h | ⟨p, h⟩⟩ := hc
        · exact absurd h (by decide)
        · have := congrArg List.reverse h
          simp at this
      · cases h1; exact hf
  have hone : ∀ n, OneType checked (checked.disp d').service n := by
    intro n s s' e e' _ _ he he'
    rcases hel _ _ (hdecl _ _ _ he) with ⟨rfl, rfl⟩ | ⟨rfl, rfl⟩ | ⟨rfl, rfl⟩ <;>
      rcases hel _ _ (hdecl _ _ _ he') with ⟨h, rfl⟩ | ⟨h, rfl⟩ | ⟨h, rfl⟩ <;> first | rfl | exact absurd h (by decide)
  have hcls : ∀ s n e, OfService checked (checked.disp d').service s → SchemaDeclares checked s n e → ∃ c, e.type = .complex c := by
    intro s n e _ he
    rcases hel _ _ (hdecl _ _ _ he) with ⟨rfl, rfl⟩ | ⟨rfl, rfl⟩ | ⟨rfl, rfl⟩ <;> exact ⟨_, rfl⟩
  obtain ⟨y, w, h4, h5, h6⟩ := h3 py"sayHello" 8 _ ha checked_sound hg hone hcls checked_wf rfl rfl rfl rfl
    { name := py"name", kind := .element, type := .simple (.string {}) } (List.mem_singleton.2 rfl) rfl rfl
  exact ⟨x, y, w, h4, h5, h6⟩

end ExRely

end Soapfish
