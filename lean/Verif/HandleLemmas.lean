import Verif.QueryLemmas
import Verif.SoapLemmas
/-
Lemmas about choosing methods, validating ordinary messages and handling requests.
-/
namespace Soapfish

/-! ### Requests stay -/

/-- A computation does not remove request objects. -/
def Grows {α} (m : M α) : Prop := ∀ s, s.reqs.length ≤ (m s).2.reqs.length

theorem Grows.pure {α} (a : α) : Grows (M.pure a) := fun _ => Nat.le_refl _
theorem Grows.throw {α} (e : Exn) : Grows (M.throw e : M α) := fun _ => Nat.le_refl _
theorem Grows.lift {α} (x : Except Exn α) : Grows (M.lift x) := fun _ => Nat.le_refl _
theorem Grows.getReq (r : ReqId) : Grows (getReq r) := by
  intro s; unfold Soapfish.getReq; split <;> exact Nat.le_refl _
theorem Grows.setReq (r : ReqId) (q : Req) : Grows (setReq r q) := by
  intro s; simp [Soapfish.setReq]
theorem Grows.newReq (q : Req) : Grows (newReq q) := by
  intro s; simp [Soapfish.newReq]
theorem Grows.emit (e : Event) : Grows (emit e) := fun _ => Nat.le_refl _

theorem Grows.bind {α β} {m : M α} {f : α → M β} (hm : Grows m) (hf : ∀ a, Grows (f a)) : Grows (M.bind m f) := by
  intro s
  have h1 := hm s
  unfold M.bind
  rcases h : m s with ⟨o, s'⟩
  rw [h] at h1
  cases o with
  | error e => exact h1
  | ok a => exact Nat.le_trans h1 (hf a s')

theorem Grows.outcome {α} {m : M α} (h : Grows m) : Grows (M.outcome m) := h

theorem Grows.run {ν α : Type} {nx : ν → ReqId → M Ret} (hnx : ∀ t r, Grows (nx t r)) (p : Prog ν α) :
    Grows (p.run nx) := by
  induction p with
  | ret a => exact .pure a
  | raise e => exact .throw e
  | get r k ih => exact .bind (.getReq r) fun q => ih q
  | set r q k ih => exact .bind (.setReq r q) fun _ => ih
  | new q k ih => exact .bind (.newReq q) fun r => ih r
  | log e k ih => exact .bind (.emit _) fun _ => ih
  | next t r k ih => exact .bind (.outcome (hnx t r)) fun o => ih o

theorem Grows.run' {α : Type} (p : Prog Empty α) : Grows p.run' := Grows.run (fun t _ => nomatch t) p

theorem Grows.prepare (W : World) (d : Dispatcher) (r : ReqId) : Grows (prepareRequest W d r) := by
  unfold prepareRequest
  simp only [M_bind]
  refine .bind (.getReq r) fun q => .bind (.lift _) fun p => ?_
  obtain ⟨header, x⟩ := p
  exact .bind (.lift _) fun m => .bind (.setReq _ _) fun _ => .bind (.lift _) fun h => .bind (.setReq _ _) fun _ =>
    .bind (.lift _) fun b => .setReq _ _

theorem Grows.callMethod (W : World) (r : ReqId) : Grows (callMethod W r) := by
  unfold Soapfish.callMethod
  simp only [M_bind]
  exact .bind (.getReq r) fun q => .bind (.lift _) fun d => .bind (.prepare W _ r) fun _ => .bind (.getReq r) fun q =>
    .bind (.lift _) fun m => .bind (.lift _) fun f => .bind (.emit _) fun _ => .bind (.run' _) fun ret => .pure _

theorem Grows.chain (W : World) (ms : List Middleware) : ∀ r, Grows (chain W ms r) := by
  induction ms with
  | nil => exact Grows.callMethod W
  | cons m ms ih => exact fun r => Grows.run (fun _ r' => ih r') (m r)

/-! ### Choosing a method -/

theorem first_find? {α : Type} {p : α → Bool} {l : List α} {a : α} (h : First (fun a => p a = true) l a) :
    l.find? p = some a := by
  obtain ⟨pre, post, rfl, h1, h2⟩ := h
  exact List.find?_eq_some_iff_append.2 ⟨h1, pre, post, rfl, fun b hb => by simpa using h2 b hb⟩

theorem AfterColon.unique {g a b : Str} (ha : AfterColon g a) (hb : AfterColon g b) : a = b := by
  have key : ∀ g n, AfterColon g n → lastPart ':' g = n := by
    clear ha hb
    rintro g n ⟨h1, h2⟩
    rcases h2 with rfl | ⟨p, rfl⟩
    · unfold lastPart; rw [splitOn_plain h1]; rfl
    · unfold lastPart
      induction p with
      | nil => rw [List.nil_append]; unfold splitOn; rw [if_pos rfl, splitOn_plain h1]; rfl
      | cons c cs ih =>
        rw [List.cons_append]
        have e : ∀ t, splitOn ':' (c :: t) = if c = ':' then [] :: splitOn ':' t
            else match splitOn ':' t with | w :: ws => (c :: w) :: ws | [] => [[c]] := fun t => rfl
        have hne := splitOn_ne (sep := ':') (cs ++ ':' :: n)
        rw [e]
        by_cases hc : c = ':'
        · rw [if_pos hc, List.getLastD_cons]
          cases h : splitOn ':' (cs ++ ':' :: n) with
          | nil => exact absurd h hne
          | cons w ws => rw [h] at ih; rw [List.getLastD_cons] at ih ⊢; exact ih
        · rw [if_neg hc]
          cases h : splitOn ':' (cs ++ ':' :: n) with
          | nil => exact absurd h hne
          | cons w ws =>
            cases ws with
            | nil =>
              exfalso
              have := splitOn_join (sep := ':') (cs ++ ':' :: n)
              rw [h] at this
              have h3 := splitOn_sep (sep := ':') (cs ++ ':' :: n) w (by rw [h]; simp)
              simp [List.intercalate] at this
              rw [this] at h3
              simp at h3
            | cons w2 ws =>
              rw [h] at ih
              simp only [List.getLastD_cons] at ih ⊢
              exact ih
  rw [← key g a ha, ← key g b hb]

theorem byInput_first {W : World} {S : Service} {n : Str} {m : MethodId}
    (h : First (fun m => (W.method m).input = .name n) S.methods m) : byInput W S n = some m :=
  first_find? (h.congr (fun a => by simp))

theorem byInput_eq_none {W : World} {S : Service} {n : Str}
    (h : ∀ m ∈ S.methods, (W.method m).input ≠ .name n) : byInput W S n = none :=
  List.find?_eq_none.2 fun m hm => by simpa using h m hm

theorem first_findSome {α β : Type} {f : α → Option β} {l : List α} {a : α} {b : β}
    (h : First (fun a => ∃ b, f a = some b) l a) (hb : f a = some b) : l.findSome? f = some b := by
  obtain ⟨pre, post, rfl, _, h2⟩ := h
  refine List.findSome?_eq_some_iff.2 ⟨pre, a, post, rfl, hb, fun c hc => ?_⟩
  cases hf : f c with
  | none => rfl
  | some b' => exact absurd ⟨b', hf⟩ (h2 c hc)

theorem First.mem {α : Type} {p : α → Prop} {l : List α} {a : α} (h : First p l a) : a ∈ l := by
  obtain ⟨pre, post, rfl, _⟩ := h; simp

/-- The choice of a method is the one specified. -/
theorem findHandler_iff {W : World} {S : Service} {env : Env} {x : Xml} {m : MethodId} :
    findHandler W S env x = .ok m ↔ ∃ root, x.Named root ∧ Handles W S env root m := by
  refine ⟨findHandler_handles, ?_⟩
  rintro ⟨root, ⟨q, a, t, k, rfl, rfl⟩, h⟩
  simp only [findHandler, rootTag, Except_ok_bind]
  cases h with
  | action ha hf =>
    rw [if_pos (truthy_iff.2 ⟨_, ha.1, ha.2⟩)]
    rw [first_find? (hf.congr (fun a' => by rw [ha.1]; simp))]
    rfl
  | input hno hf =>
    rw [if_neg (fun h => by obtain ⟨a, h1, h2⟩ := truthy_iff.1 h; exact hno a ⟨h1, h2⟩), byInput_first hf]
  | substitution hno hni hs he hg hn hf =>
    rw [if_neg (fun h => by obtain ⟨a, h1, h2⟩ := truthy_iff.1 h; exact hno a ⟨h1, h2⟩), byInput_eq_none hni]
    simp only
    have : ownElement W S q.loc = some _ := first_findSome hs he
    rw [this]
    simp only [bySubstitution, hg]
    have hm := hf.mem
    cases hms : S.methods with
    | nil => rw [hms] at hm; cases hm
    | cons m0 ms =>
      simp only
      rw [AfterColon.unique (lastPart_after _) hn, byInput_first hf]
      rfl

theorem Handles.unique {W : World} {S : Service} {env : Env} {root : Str} {m m' : MethodId}
    (h : Handles W S env root m) (h' : Handles W S env root m') : m = m' := by
  have h1 := findHandler_iff.2 ⟨root, ⟨⟨none, root⟩, [], none, [], rfl, rfl⟩, h⟩
  have h2 := findHandler_iff.2 ⟨root, ⟨⟨none, root⟩, [], none, [], rfl, rfl⟩, h'⟩
  rw [h1] at h2
  injection h2

theorem parseInput_iff {W : World} {S : Service} {m : MethodId} {x : Xml} {v : Val} :
    parseInput W S (W.method m) x = .ok v ↔ ReadsInput W S m x v := by
  refine ⟨parseInput_reads, ?_⟩
  intro h
  unfold parseInput
  cases h with
  | element h1 h2 h3 => simp only [h1, h2, Except_ok_bind, optE, h3]
  | cls h1 h2 => simp only [h1, h2]

theorem parseHeaderPart_iff {W : World} {S : Service} {m : MethodId} {hdr : Option Xml} {v : Val} :
    parseHeaderPart W S (W.method m) (headerVal hdr) = .ok v ↔ ReadsHeader W S m hdr v := by
  constructor
  · intro h
    cases hdr with
    | none => injection h with h; subst h; exact .missing
    | some x =>
      unfold parseHeaderPart at h
      simp only [headerVal, Val.isNone, Bool.false_eq_true, if_false, headerParseAs, Val.element, Except_ok_bind] at h
      split at h
      · next hc => exact .method hc h
      · next hc hc' => exact .service hc hc' h
      · next hc hc' => injection h with h; subst h; exact .unknown hc hc'
  · intro h
    cases h with
    | missing => rfl
    | unknown h1 h2 => simp [parseHeaderPart, headerVal, Val.isNone, h1, h2]
    | method h1 h2 => simp [parseHeaderPart, headerVal, Val.isNone, h1, headerParseAs, Val.element, Except_ok_bind, h2]
    | service h1 h2 h3 =>
      simp [parseHeaderPart, headerVal, Val.isNone, h1, h2, headerParseAs, Val.element, Except_ok_bind, h3]

/-! ### Validating ordinary messages -/

theorem eachE_ok_iff {α} {f : α → Except Exn Unit} {l : List α} : eachE f l = .ok () ↔ ∀ a ∈ l, f a = .ok () := by
  refine ⟨eachE_ok, ?_⟩
  intro h
  induction l with
  | nil => rfl
  | cons a as ih =>
    simp only [eachE, h a (by simp), Except_ok_bind]
    exact ih fun b hb => h b (by simp [hb])

/-- The error of a loop is the error of one of its steps. -/
theorem eachE_error {α} {f : α → Except Exn Unit} {l : List α} {e : Exn} (h : eachE f l = .error e) :
    ∃ a ∈ l, f a = .error e := by
  induction l with
  | nil => cases h
  | cons a as ih =>
    simp only [eachE] at h
    cases hf : f a with
    | error e' => rw [hf] at h; injection h with h; subst h; exact ⟨a, by simp, hf⟩
    | ok u =>
      rw [hf] at h
      obtain ⟨b, h1, h2⟩ := ih h
      exact ⟨b, by simp [h1], h2⟩

/-- All header children are fine. -/
def HeadersOk (W : World) (d : Dispatcher) (hdr : Option Xml) : Prop :=
  ∀ h, hdr = some h → ∀ y ∈ h.kids, HeaderOk W d y

theorem validateHeader_iff {W : World} {d : Dispatcher} {hdr : Option Xml} :
    validateHeader W d (headerVal hdr) = .ok () ↔ HeadersOk W d hdr := by
  cases hdr with
  | none =>
    refine ⟨fun _ h hh => (by cases hh), fun _ => rfl⟩
  | some h =>
    have : validateHeader W d (headerVal (some h)) = eachE (validateHeaderChild W d) h.kids := rfl
    rw [this, eachE_ok_iff]
    constructor
    · intro h2 h' hh y hy
      injection hh with hh; subst hh
      exact headerChild_iff.1 (h2 y hy)
    · intro h2 y hy
      exact headerChild_iff.2 (h2 h rfl y hy)

/-- Reading and validating an ordinary message. -/
theorem readAndValidate_plain {W : World} {d : Dispatcher} {content : Bytes} {doc x : Xml} {hdr : Option Xml} {k : Nat}
    (hD : W.depth = k + 4) (hr : W.read content = some doc) (hp : PlainMessage doc hdr x) :
    readAndValidate W d content = (do
      asClientFault W d.service.version (do
        validateHeader W d (headerVal hdr)
        d.validator x)
      .ok (headerVal hdr, x)) := by
  obtain ⟨body, hb, he⟩ := parse_plain (v := d.service.version) (U := W.user) (k := k) hp
  have hx : ∃ q a t k, x = .elem q a t k := by
    obtain ⟨_, _, _, _, _, _, _, _, _, _, ⟨q, a, t, k, h, _⟩, _⟩ := hp
    exact ⟨q, a, t, k, h⟩
  obtain ⟨qx, ax, tx, kx, rfl⟩ := hx
  have h1 : parseSoapContent W d.service content = .ok (.inst cEnvelope [(py"Header", headerVal hdr),
      (py"Body", .inst cBody [(py"message", Val.none), (py"Fault", Val.none)] (some body))] (some doc)) := by
    unfold parseSoapContent
    rw [hr]
    simp only [World.table, hD, he, Except_ok_bind]
    rfl
  have h2 : bodyContent (.inst cBody [(py"message", Val.none), (py"Fault", Val.none)] (some body)) =
      .ok (.elem qx ax tx kx) := by
    simp only [bodyContent, Val.element, Except_ok_bind, hb]
  unfold readAndValidate
  rw [h1]
  simp only [Except_ok_bind]
  have h3 : (Val.inst cEnvelope [(py"Header", headerVal hdr),
      (py"Body", .inst cBody [(py"message", Val.none), (py"Fault", Val.none)] (some body))] (some doc)).getA py"Header" =
      .ok (headerVal hdr) := rfl
  have h4 : (Val.inst cEnvelope [(py"Header", headerVal hdr),
      (py"Body", .inst cBody [(py"message", Val.none), (py"Fault", Val.none)] (some body))] (some doc)).getA py"Body" =
      .ok (.inst cBody [(py"message", Val.none), (py"Fault", Val.none)] (some body)) := rfl
  unfold validateInput
  rw [h3, h4]
  simp only [Except_ok_bind, h2, validateElement]

theorem readAndValidate_plain_ok {W : World} {d : Dispatcher} {content : Bytes} {doc x : Xml} {hdr : Option Xml}
    (hD : 4 ≤ W.depth) (hr : W.read content = some doc) (hp : PlainMessage doc hdr x) (hh : HeadersOk W d hdr)
    (hx : d.validator x = .ok ()) : readAndValidate W d content = .ok (headerVal hdr, x) := by
  obtain ⟨k, hk⟩ : ∃ k, W.depth = k + 4 := ⟨W.depth - 4, by omega⟩
  rw [readAndValidate_plain hk hr hp, validateHeader_iff.2 hh]
  simp only [Except_ok_bind, hx]
  rfl

/-! ### Handling a SOAP request -/

theorem callRequestHook_none {d : Dispatcher} {name : Str} {r : ReqId} (h : d.hooks.get? name = none) :
    callRequestHook d name r = M.pure r := by
  unfold callRequestHook
  simp only [h]
  rfl

theorem callResponseHook_none {d : Dispatcher} {name : Str} {r : ReqId} {resp : Response}
    (h : d.hooks.get? name = none) : callResponseHook d name r resp = M.pure resp := by
  unfold callResponseHook
  simp only [h]
  rfl

/-- What happens after the middlewares. -/
def afterChain (W : World) (d : DispId) (r : ReqId) (o : Except Exn Ret) : M Response :=
  M.bind (M.lift (catchSoapError o)) fun resp => M.bind (getReq r) fun q =>
    M.bind (M.lift (finishResponse W (W.disp d) q.method resp)) fun resp =>
      callResponseHook (W.disp d) py"soap-response" r resp

theorem handleSoap_run {W : World} {d : DispId} {r : ReqId} {s : State} {q : Req}
    (hh : (W.disp d).hooks.get? py"soap-request" = none) (hq : s.reqs[r]? = some q) :
    handleSoap W d r s = afterChain W d r (chain W (W.disp d).middlewares r (s.begin d r q)).1
      (chain W (W.disp d).middlewares r (s.begin d r q)).2 := by
  unfold handleSoap
  simp only [M_bind, callRequestHook_none hh, M.pure_bind]
  rw [M.bind_ok (getReq_some hq), setReq_bind]
  rfl

theorem begin_req {s : State} {d : DispId} {r : ReqId} {q : Req} (hq : s.reqs[r]? = some q) :
    (s.begin d r q).reqs[r]? = some { q with dispatcher := some d } := by
  have hlt : r < s.reqs.length := (List.getElem?_eq_some_iff.1 hq).1
  simp [State.begin, hlt]

theorem chain_req {W : World} {ms : List Middleware} {s : State} {d : DispId} {r : ReqId} {q : Req}
    (hq : s.reqs[r]? = some q) : ∃ q', (chain W ms r (s.begin d r q)).2.reqs[r]? = some q' := by
  have h1 : r < s.reqs.length := (List.getElem?_eq_some_iff.1 hq).1
  have h2 := Grows.chain W ms r (s.begin d r q)
  have h3 : (s.begin d r q).reqs.length = s.reqs.length := by simp [State.begin]
  have h4 : r < (chain W ms r (s.begin d r q)).2.reqs.length := Nat.lt_of_lt_of_le (by rw [h3]; exact h1) h2
  exact ⟨_, List.getElem?_eq_getElem h4⟩

/-- Routing. -/
theorem dispatch_post {W : World} {d : DispId} {r : ReqId} {s : State} {q : Req} (hq : s.reqs[r]? = some q)
    (hp : IsPost q) : dispatch W d r s = handleSoap W d r s := by
  unfold dispatch
  simp only [M_bind]
  rw [M.bind_ok (getReq_some hq)]
  have : (q.environ py"REQUEST_METHOD").getD [] = py"POST" := by rw [hp]; rfl
  simp only [this]
  rw [if_neg (by rintro ⟨h, _⟩; revert h; decide), if_neg (by rintro ⟨h, _⟩; revert h; decide), if_pos trivial]

/-! ### Events of hooks -/

theorem callRequestHook_emits {P : Event → Prop} (hlog : ∀ e, P (.log e)) (d : Dispatcher) (name : Str) (r : ReqId)
    (hh : P (.hook name)) : Emits P (callRequestHook d name r) := by
  unfold callRequestHook
  simp only [M_bind]
  refine .bind ?_ fun obj => ?_
  · split
    · exact .bind (.emit hh) fun _ => .run' hlog _
    · exact .pure _
  · split
    · exact .pure _
    · exact .throw _

theorem callResponseHook_emits {P : Event → Prop} (hlog : ∀ e, P (.log e)) (d : Dispatcher) (name : Str) (r : ReqId)
    (resp : Response) (hh : P (.hook name)) : Emits P (callResponseHook d name r resp) := by
  unfold callResponseHook
  simp only [M_bind]
  refine .bind ?_ fun obj => ?_
  · split
    · exact .bind (.emit hh) fun _ => .run' hlog _
    · exact .pure _
  · split
    · exact .pure _
    · exact .throw _

theorem handleWsdl_emits {P : Event → Prop} (hlog : ∀ e, P (.log e)) (W : World) (d : DispId) (r : ReqId)
    (h1 : P (.hook py"wsdl-request")) (h2 : P (.hook py"wsdl-response")) : Emits P (handleWsdl W d r) := by
  unfold handleWsdl
  simp only [M_bind]
  exact .bind (callRequestHook_emits hlog _ _ _ h1) fun r => .bind (.getReq r) fun q => .bind (.lift _) fun b =>
    callResponseHook_emits hlog _ _ _ _ h2

theorem handleXsd_emits {P : Event → Prop} (hlog : ∀ e, P (.log e)) (W : World) (d : DispId) (r : ReqId)
    (h1 : P (.hook py"xsd-request")) (h2 : P (.hook py"wsdl-response")) : Emits P (handleXsd W d r) := by
  unfold handleXsd
  simp only [M_bind]
  exact .bind (callRequestHook_emits hlog _ _ _ h1) fun r => .bind (.getReq r) fun q =>
    callResponseHook_emits hlog _ _ _ _ h2

end Soapfish
