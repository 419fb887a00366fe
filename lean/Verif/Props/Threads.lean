import Verif.Spec.Threads
import Verif.Props.Dispatch
import Verif.DispatchLemmas
/-
C100: requests that are served at the same time do not influence each other.
-/
namespace Soapfish

/-! ### A task that nobody interferes with -/

/-- All steps of a task, one after the other. -/
def Task.run {α : Type} : Task α → M α
  | .done o => M.lift o
  | .get r k => fun s => (k s.reqs[r]?).run s
  | .set r q k => fun s => k.run { s with reqs := s.reqs.set r q }
  | .new q k => fun s => (k s.reqs.length).run { s with reqs := s.reqs ++ [q] }
  | .emit e k => fun s => k.run { s with trace := s.trace ++ [e] }

theorem Task.run_bind {α β : Type} (f : α → Task β) : ∀ (t : Task α) (s : State), (t.bind f).run s = M.bind t.run (fun a => (f a).run) s
  | .done (.ok _), _ => rfl
  | .done (.error _), _ => rfl
  | .get r k, s => Task.run_bind f (k s.reqs[r]?) s
  | .set _ _ k, _ => Task.run_bind f k _
  | .new _ k, s => Task.run_bind f (k s.reqs.length) _
  | .emit _ k, _ => Task.run_bind f k _

theorem Task.run_outcome {α : Type} : ∀ (t : Task α) (s : State), t.outcome.run s = M.outcome t.run s
  | .done _, _ => rfl
  | .get r k, s => Task.run_outcome (k s.reqs[r]?) s
  | .set _ _ k, _ => Task.run_outcome k _
  | .new _ k, s => Task.run_outcome (k s.reqs.length) _
  | .emit _ k, _ => Task.run_outcome k _

theorem Task.run_read (r : ReqId) : (Task.read r).run = getReq r := by
  funext s
  show (match s.reqs[r]? with | some q => Task.done (.ok q) | none => Task.done (.error .attributeError) : Task Req).run s = getReq r s
  unfold getReq
  cases s.reqs[r]? <;> rfl

theorem Task.run_write (r : ReqId) (q : Req) : (Task.write r q).run = setReq r q := rfl
theorem Task.run_note (e : Event) : (Task.note e).run = Soapfish.emit e := rfl
theorem Task.run_done {α : Type} (o : Except Exn α) : (Task.done o).run = M.lift o := rfl

theorem Task.run_bind' {α β : Type} (f : α → Task β) (t : Task α) : (t >>= f).run = M.bind t.run fun a => (f a).run :=
  funext fun s => Task.run_bind f t s

theorem Task.run_bind'' {α β : Type} (f : α → Task β) (t : Task α) : (t.bind f).run = M.bind t.run fun a => (f a).run :=
  funext fun s => Task.run_bind f t s

theorem Task.run_outcome' {α : Type} (t : Task α) : t.outcome.run = M.outcome t.run := funext fun s => Task.run_outcome t s

theorem Prog.run_task {ν α : Type} {nx : ν → ReqId → M Ret} {nt : ν → ReqId → Task Ret} (h : ∀ t r, (nt t r).run = nx t r) :
    ∀ p : Prog ν α, (p.task nt).run = p.run nx
  | .ret _ => rfl
  | .raise _ => rfl
  | .get r k => by
    unfold Prog.task Prog.run
    rw [Task.run_bind'', Task.run_read]
    congr 1
    funext q
    exact Prog.run_task h (k q)
  | .set r q k => by
    unfold Prog.task Prog.run
    have := Prog.run_task h k
    funext s
    show (k.task nt).run _ = (k.run nx) _
    rw [this]
  | .new q k => by
    unfold Prog.task Prog.run
    funext s
    show ((k s.reqs.length).task nt).run _ = ((k s.reqs.length).run nx) _
    rw [Prog.run_task h (k s.reqs.length)]
  | .log e k => by
    unfold Prog.task Prog.run
    have := Prog.run_task h k
    funext s
    show (k.task nt).run _ = (k.run nx) _
    rw [this]
  | .next t r k => by
    unfold Prog.task Prog.run
    rw [Task.run_bind'', Task.run_outcome', h t r]
    congr 1
    funext o
    exact Prog.run_task h (k o)

theorem Prog.run_task' {α : Type} (p : Prog Empty α) : p.task'.run = p.run' := Prog.run_task (fun t _ => nomatch t) p

section
variable (W : World)

theorem prepareRequestT_run (d : Dispatcher) (r : ReqId) : (prepareRequestT W d r).run = prepareRequest W d r := by
  unfold prepareRequestT prepareRequest
  simp only [Task.run_bind', Task.run_read, Task.run_write, Task.run_done]
  rfl

theorem callMethodT_run (r : ReqId) : (callMethodT W r).run = callMethod W r := by
  unfold callMethodT callMethod
  simp only [Task.run_bind', Task.run_read, Task.run_done, Task.run_note, prepareRequestT_run, Prog.run_task']
  rfl

theorem chainT_run : ∀ ms r, (chainT W ms r).run = chain W ms r
  | [], r => callMethodT_run W r
  | m :: ms, r => Prog.run_task (fun _ r' => chainT_run ms r') (m r)

theorem callRequestHookT_run (d : Dispatcher) (name : Str) (r : ReqId) : (callRequestHookT d name r).run = callRequestHook d name r := by
  unfold callRequestHookT callRequestHook
  rw [Task.run_bind']
  show M.bind _ _ = M.bind _ _
  congr 1
  · cases d.hooks.get? name with
    | none => rfl
    | some h =>
      show Task.run (Task.bind _ _) = _
      rw [Task.run_bind'', Task.run_note, Prog.run_task']
  · funext o
    cases o <;> rfl

theorem callResponseHookT_run (d : Dispatcher) (name : Str) (r : ReqId) (resp : Response) :
    (callResponseHookT d name r resp).run = callResponseHook d name r resp := by
  unfold callResponseHookT callResponseHook
  rw [Task.run_bind']
  show M.bind _ _ = M.bind _ _
  congr 1
  · cases d.hooks.get? name with
    | none => rfl
    | some h =>
      show Task.run (Task.bind _ _) = _
      rw [Task.run_bind'', Task.run_note, Prog.run_task']
  · funext o
    cases o <;> rfl

/-- The steps of the dispatcher, with nothing in between, are what the dispatcher does. -/
theorem dispatchT_run (d : DispId) (r : ReqId) : (dispatchT W d r).run = dispatch W d r := by
  unfold dispatchT dispatch
  rw [Task.run_bind', Task.run_read]
  show M.bind _ _ = M.bind _ _
  congr 1
  funext q
  simp only
  split
  · unfold handleWsdlT handleWsdl
    simp only [Task.run_bind', Task.run_read, Task.run_done, callRequestHookT_run, callResponseHookT_run]
    rfl
  split
  · unfold handleXsdT handleXsd
    simp only [Task.run_bind', Task.run_read, callRequestHookT_run, callResponseHookT_run]
    rfl
  split
  · unfold handleSoapT handleSoap
    simp only [Task.run_bind', Task.run_read, Task.run_write, Task.run_done, Task.run_outcome', callRequestHookT_run, callResponseHookT_run,
      chainT_run]
    rfl
  · rfl

end

/-! ### Tasks that keep to one request -/

/-- The task looks at and changes one request only; what it gives has `P`. -/
inductive Local {α : Type} (r : ReqId) (P : α → Prop) : Task α → Prop where
  | ok {a} : P a → Local r P (.done (.ok a))
  | error {e} : Local r P (.done (.error e))
  | get {k} : (∀ q, Local r P (k q)) → Local r P (.get r k)
  | set {q k} : Local r P k → Local r P (.set r q k)
  | emit {e k} : Local r P k → Local r P (.emit e k)

theorem Local.bind {α β : Type} {r : ReqId} {P : α → Prop} {Q : β → Prop} {f : α → Task β} {t : Task α} (ht : Local r P t)
    (hf : ∀ a, P a → Local r Q (f a)) : Local r Q (t.bind f) := by
  induction ht with
  | ok h => exact hf _ h
  | error => exact .error
  | get _ ih => exact .get ih
  | set _ ih => exact .set ih
  | emit _ ih => exact .emit ih

theorem Local.outcome {α : Type} {r : ReqId} {P : α → Prop} {t : Task α} (ht : Local r P t) : Local r (fun _ => True) t.outcome := by
  induction ht with
  | ok h => exact .ok trivial
  | error => exact .ok trivial
  | get _ ih => exact .get ih
  | set _ ih => exact .set ih
  | emit _ ih => exact .emit ih

theorem Local.imp {α : Type} {r : ReqId} {P Q : α → Prop} {t : Task α} (h : ∀ a, P a → Q a) (ht : Local r P t) : Local r Q t := by
  induction ht with
  | ok hp => exact .ok (h _ hp)
  | error => exact .error
  | get _ ih => exact .get ih
  | set _ ih => exact .set ih
  | emit _ ih => exact .emit ih

theorem Local.done {α : Type} {r : ReqId} (o : Except Exn α) : Local r (fun _ => True) (.done o) := by
  cases o with
  | ok _ => exact .ok trivial
  | error _ => exact .error

theorem Local.read (r : ReqId) : Local r (fun _ => True) (Task.read r) := by
  refine .get fun q => ?_
  cases q with
  | none => exact .error
  | some q => exact .ok trivial

theorem Local.write (r : ReqId) (q : Req) : Local r (fun _ => True) (Task.write r q) := .set (.ok trivial)
theorem Local.note (r : ReqId) (e : Event) : Local r (fun _ => True) (Task.note e) := .emit (.ok trivial)

theorem KeepsTo.local {ν α : Type} {r : ReqId} {P : α → Prop} {nt : ν → ReqId → Task Ret} (hn : ∀ t, Local r (fun _ => True) (nt t r))
    {p : Prog ν α} (hp : KeepsTo r P p) : Local r P (p.task nt) := by
  induction hp with
  | ret h => exact .ok h
  | raise => exact .error
  | get _ ih => exact (Local.read r).bind fun q _ => ih q
  | set _ ih => exact .set ih
  | log _ ih => exact .emit ih
  | next _ ih => exact (hn _).outcome.bind fun o _ => ih o

theorem prepare_local {W : World} (d : Dispatcher) (r : ReqId) : Local r (fun _ => True) (prepareRequestT W d r) :=
  (Local.read r).bind fun _ _ => (Local.done _).bind fun _ _ => (Local.done _).bind fun _ _ => (Local.write r _).bind fun _ _ =>
    (Local.done _).bind fun _ _ => (Local.write r _).bind fun _ _ => (Local.done _).bind fun _ _ => Local.write r _

section
variable {W : World} (hW : MindsItsOwn W)
include hW

theorem call_local (r : ReqId) : Local r (fun _ => True) (callMethodT W r) := by
  refine (Local.read r).bind fun q _ => (Local.done _).bind fun d _ => (prepare_local _ r).bind fun _ _ => (Local.read r).bind fun q _ =>
    (Local.done _).bind fun m _ => ?_
  cases hf : (W.method m).function with
  | none => exact .error
  | some f =>
    exact (Local.note r _).bind fun _ _ => ((hW.methods m f hf r _).local (fun t => nomatch t)).bind fun _ _ => .ok trivial

theorem chain_local {d : DispId} (r : ReqId) : ∀ ms, (∀ m ∈ ms, m ∈ (W.disp d).middlewares) → Local r (fun _ => True) (chainT W ms r)
  | [], _ => call_local hW r
  | m :: ms, h => (hW.middlewares d m (h m List.mem_cons_self) r).local fun _ => chain_local r ms fun m hm => h m (List.mem_cons_of_mem _ hm)

theorem requestHook_local {d : DispId} (name : Str) (r : ReqId) : Local r (fun r' => r' = r) (callRequestHookT (W.disp d) name r) := by
  unfold callRequestHookT
  refine Local.bind (P := fun x => ∀ r', x = .request r' → r' = r) ?_ ?_
  · cases hh : (W.disp d).hooks.get? name with
    | none => exact .ok fun r' h => by injection h with h; exact h.symm
    | some h => exact (Local.note r _).bind fun _ _ => (hW.hooks d name h hh r none).local fun t => nomatch t
  · intro x hx
    cases x with
    | request r' => exact .ok (hx r' rfl)
    | response => exact .error
    | other => exact .error

theorem responseHook_local {d : DispId} (name : Str) (r : ReqId) (resp : Response) :
    Local r (fun _ => True) (callResponseHookT (W.disp d) name r resp) := by
  unfold callResponseHookT
  refine Local.bind (P := fun _ => True) ?_ ?_
  · cases hh : (W.disp d).hooks.get? name with
    | none => exact .ok trivial
    | some h =>
      exact (Local.note r _).bind fun _ _ => ((hW.hooks d name h hh r (some resp)).local fun t => nomatch t).imp fun _ _ => trivial
  · intro x hx
    cases x with
    | request r' => exact .error
    | response => exact .ok trivial
    | other => exact .error

theorem dispatch_local (d : DispId) (r : ReqId) : Local r (fun _ => True) (dispatchT W d r) := by
  refine (Local.read r).bind fun q _ => ?_
  simp only
  split
  · refine (requestHook_local hW _ r).bind fun r' hr => ?_
    subst hr
    exact (Local.read r').bind fun _ _ => (Local.done _).bind fun _ _ => responseHook_local hW _ r' _
  split
  · refine (requestHook_local hW _ r).bind fun r' hr => ?_
    subst hr
    exact (Local.read r').bind fun _ _ => responseHook_local hW _ r' _
  split
  · refine (requestHook_local hW _ r).bind fun r' hr => ?_
    subst hr
    exact (Local.read r').bind fun _ _ => (Local.write r' _).bind fun _ _ => (chain_local hW (d := d) r' _ fun _ h => h).outcome.bind fun _ _ =>
      (Local.done _).bind fun _ _ => (Local.read r').bind fun _ _ => (Local.done _).bind fun _ _ => responseHook_local hW _ r' _
  · exact .ok trivial

end

/-! ### Threads that take turns -/

/-- What concerns one thread: what it still has to do, its request, what happened in it. -/
abbrev Share := Task Response × Option Req × List Event

/-- A step of the thread as it sees it. -/
def Share.step : Share → Share
  | (.get _ k, q, es) => (k q, q, es)
  | (.set _ q' k, q, es) => (k, q.map fun _ => q', es)
  | (.emit e k, q, es) => (k, q, es ++ [e])
  | s => s

def Share.steps : Nat → Share → Share
  | 0, s => s
  | n + 1, s => Share.steps n s.step

def Sees (w : Server) (i : Nat) (r : ReqId) (s : Share) : Prop := w.threads[i]? = some s.1 ∧ w.reqs[r]? = s.2.1 ∧ w.eventsOf i = s.2.2

theorem steps_done (o : Except Exn Response) (q : Option Req) (es : List Event) : ∀ n, Share.steps n (.done o, q, es) = (.done o, q, es)
  | 0 => rfl
  | n + 1 => steps_done o q es n

theorem set_own {α : Type} (l : List α) (r : Nat) (q : α) : (l.set r q)[r]? = (l[r]?).map fun _ => q := by
  rw [List.getElem?_set_self']
  cases l[r]? <;> rfl

theorem events_own {w : Server} {i : Nat} {ts : List (Task Response)} {e : Event} :
    Server.eventsOf { w with threads := ts, log := w.log ++ [(i, e)] } i = w.eventsOf i ++ [e] := by
  simp [Server.eventsOf, List.filter_append]

theorem events_other {w : Server} {i j : Nat} (h : i ≠ j) {ts : List (Task Response)} {e : Event} :
    Server.eventsOf { w with threads := ts, log := w.log ++ [(i, e)] } j = w.eventsOf j := by
  simp [Server.eventsOf, List.filter_append, h]

theorem step_own {w : Server} {i : Nat} {r : ReqId} {P : Response → Prop} {s : Share} (hs : Sees w i r s) (hl : Local r P s.1) :
    Sees (w.step i) i r s.step ∧ Local r P s.step.1 := by
  obtain ⟨t, q, es⟩ := s
  obtain ⟨h1, h2, h3⟩ := hs
  simp only at h1 h2 h3 hl
  have hlt : i < w.threads.length := (List.getElem?_eq_some_iff.1 h1).1
  have hset : ∀ t', (w.threads.set i t')[i]? = some t' := fun t' => by simp [hlt]
  cases hl with
  | ok hp => exact ⟨by unfold Server.step; rw [h1]; exact ⟨h1, h2, h3⟩, .ok hp⟩
  | error => exact ⟨by unfold Server.step; rw [h1]; exact ⟨h1, h2, h3⟩, .error⟩
  | get hk =>
    refine ⟨?_, hk _⟩
    unfold Server.step
    rw [h1]
    exact ⟨by simp only [h2]; exact hset _, h2, h3⟩
  | set hk =>
    refine ⟨?_, hk⟩
    unfold Server.step
    rw [h1]
    exact ⟨hset _, by simp only [set_own, h2]; rfl, h3⟩
  | emit hk =>
    refine ⟨?_, hk⟩
    unfold Server.step
    rw [h1]
    exact ⟨hset _, h2, by rw [events_own, h3]; rfl⟩

theorem step_other {w : Server} {i j : Nat} (hij : i ≠ j) {r r' : ReqId} (hr : r ≠ r') {P : Response → Prop} {t : Task Response} {s : Share}
    (hs : Sees w j r' s) (ht : w.threads[i]? = some t) (hl : Local r P t) : Sees (w.step i) j r' s := by
  obtain ⟨h1, h2, h3⟩ := hs
  have hset : ∀ t', (w.threads.set i t')[j]? = some s.1 := fun t' => by rw [List.getElem?_set_ne hij]; exact h1
  unfold Server.step
  rw [ht]
  cases hl with
  | ok => exact ⟨h1, h2, h3⟩
  | error => exact ⟨h1, h2, h3⟩
  | get => exact ⟨hset _, h2, h3⟩
  | set => exact ⟨hset _, by simp only [List.getElem?_set_ne hr]; exact h2, h3⟩
  | emit => exact ⟨hset _, h2, by rw [events_other hij]; exact h3⟩

theorem step_none {w : Server} {i : Nat} (h : w.threads[i]? = none) : w.step i = w := by
  unfold Server.step
  rw [h]

/-- All threads keep to requests of their own. -/
def Apart (w : Server) (rs : List ReqId) : Prop :=
  w.threads.length = rs.length ∧ ∀ (i : Nat) r, rs[i]? = some r → ∃ t, w.threads[i]? = some t ∧ Local r (fun _ => True) t

theorem nodup_ne {rs : List ReqId} (hn : rs.Nodup) {i j : Nat} {r r' : ReqId} (hi : rs[i]? = some r) (hj : rs[j]? = some r') (h : i ≠ j) : r ≠ r' := by
  rintro rfl
  exact h ((List.getElem?_inj (List.getElem?_eq_some_iff.1 hi).1 hn).1 (hi.trans hj.symm))

theorem apart_step {w : Server} {rs : List ReqId} (hn : rs.Nodup) (ha : Apart w rs) (i : Nat) : Apart (w.step i) rs := by
  cases hi : rs[i]? with
  | none =>
    have : w.threads[i]? = none := by
      rw [List.getElem?_eq_none_iff] at hi ⊢
      rw [ha.1]
      exact hi
    rw [step_none this]
    exact ha
  | some r =>
    obtain ⟨t, ht, hl⟩ := ha.2 i r hi
    have hown := step_own (s := (t, w.reqs[r]?, w.eventsOf i)) ⟨ht, rfl, rfl⟩ hl
    have hlen : (w.step i).threads.length = w.threads.length := by
      unfold Server.step
      rw [ht]
      cases hl <;> simp
    refine ⟨by rw [hlen, ha.1], fun j r' hj => ?_⟩
    by_cases hij : i = j
    · subst hij
      rw [hi] at hj
      injection hj with hj
      subst hj
      exact ⟨_, hown.1.1, hown.2⟩
    · obtain ⟨t', ht', hl'⟩ := ha.2 j r' hj
      exact ⟨t', (step_other (s := (t', w.reqs[r']?, w.eventsOf j)) hij (nodup_ne hn hi hj hij) ⟨ht', rfl, rfl⟩ ht hl).1, hl'⟩

/-- Whatever the others do, a thread does as many steps as it has turns. -/
theorem runs_sees {rs : List ReqId} (hn : rs.Nodup) {i : Nat} {r : ReqId} (hi : rs[i]? = some r) : ∀ (sched : List Nat) {w : Server}, Apart w rs →
    ∀ {s : Share}, Sees w i r s → Sees (w.runs sched) i r (s.steps (sched.count i))
  | [], _, _, _, hs => hs
  | j :: sched, w, ha, s, hs => by
    have ih := fun {s} hs => runs_sees hn hi sched (apart_step hn ha j) (s := s) hs
    show Sees ((w.step j).runs sched) i r _
    by_cases hij : j = i
    · subst hij
      rw [List.count_cons_self]
      obtain ⟨t, ht, hl⟩ := ha.2 j r hi
      have : t = s.1 := Option.some.inj (ht.symm.trans hs.1)
      subst this
      exact ih (step_own hs hl).1
    · rw [List.count_cons_of_ne hij]
      cases hj : rs[j]? with
      | none =>
        have : w.threads[j]? = none := by
          rw [List.getElem?_eq_none_iff] at hj ⊢
          rw [ha.1]
          exact hj
        rw [step_none this] at ih ⊢
        exact ih hs
      | some r' =>
        obtain ⟨t, ht, hl⟩ := ha.2 j r' hj
        exact ih (step_other hij (nodup_ne hn hj hi hij) hs ht hl)

/-- A thread that keeps to its request gets done, and as if it were alone. -/
theorem steps_run {r : ReqId} {P : Response → Prop} {t : Task Response} (hl : Local r P t) : ∀ q : Option Req, ∃ n o q' new,
    (∀ m es, n ≤ m → Share.steps m (t, q, es) = (.done o, q', es ++ new)) ∧
    ∀ s : State, s.reqs[r]? = q → (t.run s).1 = o ∧ (t.run s).2.reqs[r]? = q' ∧ (t.run s).2.trace = s.trace ++ new := by
  induction hl with
  | ok => exact fun q => ⟨0, _, q, [], fun m es _ => by rw [steps_done, List.append_nil], fun s hs => ⟨rfl, hs, (List.append_nil _).symm⟩⟩
  | error => exact fun q => ⟨0, _, q, [], fun m es _ => by rw [steps_done, List.append_nil], fun s hs => ⟨rfl, hs, (List.append_nil _).symm⟩⟩
  | @get k hk ih =>
    intro q
    obtain ⟨n, o, q', new, h1, h2⟩ := ih q q
    refine ⟨n + 1, o, q', new, fun m es hm => ?_, fun s hs => ?_⟩
    · cases m with
      | zero => omega
      | succ m => exact h1 m es (by omega)
    · show ((k s.reqs[r]?).run s).1 = o ∧ ((k s.reqs[r]?).run s).2.reqs[r]? = q' ∧ ((k s.reqs[r]?).run s).2.trace = s.trace ++ new
      rw [hs]
      exact h2 s hs
  | @set q0 k hk ih =>
    intro q
    obtain ⟨n, o, q', new, h1, h2⟩ := ih (q.map fun _ => q0)
    refine ⟨n + 1, o, q', new, fun m es hm => ?_, fun s hs => ?_⟩
    · cases m with
      | zero => omega
      | succ m => exact h1 m es (by omega)
    · exact h2 { s with reqs := s.reqs.set r q0 } (by simp only [set_own, hs])
  | @emit e k hk ih =>
    intro q
    obtain ⟨n, o, q', new, h1, h2⟩ := ih q
    refine ⟨n + 1, o, q', e :: new, fun m es hm => ?_, fun s hs => ?_⟩
    · cases m with
      | zero => omega
      | succ m =>
        show Share.steps m (k, q, es ++ [e]) = _
        rw [h1 m _ (by omega), List.append_assoc, List.singleton_append]
    · obtain ⟨h3, h4, h5⟩ := h2 { s with trace := s.trace ++ [e] } hs
      exact ⟨h3, h4, by rw [show (Task.run (.emit e k) s).2.trace = _ from h5, List.append_assoc]; rfl⟩

theorem steps_add : ∀ (n m : Nat) (s : Share), Share.steps (n + m) s = Share.steps m (Share.steps n s)
  | 0, m, s => by rw [Nat.zero_add]; rfl
  | n + 1, m, s => by rw [Nat.succ_add]; exact steps_add n m s.step

section
variable (W : World) (hW : MindsItsOwn W) (reqs : List Req) (jobs : List (DispId × ReqId)) (hjobs : (jobs.map (·.2)).Nodup)
include hW hjobs

omit hjobs in
theorem serving_apart : Apart (serving W reqs jobs) (jobs.map (·.2)) := by
  refine ⟨by simp [serving], fun i r hi => ?_⟩
  rw [List.getElem?_map, Option.map_eq_some_iff] at hi
  obtain ⟨j, hj, rfl⟩ := hi
  exact ⟨dispatchT W j.1 j.2, by simp [serving, hj], dispatch_local hW _ _⟩

/-- **C100 (no interference).** Many threads serve requests at the same time, each its own, and take turns in any order.  When a
thread is done, its request has been answered as if there were no other threads: the response or the exception is the same, and so
is what happened in the thread and what became of the request object. -/
theorem C100_alone (schedule : List Nat) (i : Nat) (d : DispId) (r : ReqId) (hi : jobs[i]? = some (d, r)) (o : Except Exn Response)
    (hdone : ((serving W reqs jobs).runs schedule).threads[i]? = some (.done o)) :
    o = outcome (dispatch W d r) { reqs := reqs } ∧
    ((serving W reqs jobs).runs schedule).eventsOf i = happened (dispatch W d r) { reqs := reqs } ∧
    ((serving W reqs jobs).runs schedule).reqs[r]? = (dispatch W d r { reqs := reqs }).2.reqs[r]? := by
  have hs := runs_sees hjobs (i := i) (r := r) (by rw [List.getElem?_map, hi]; rfl) schedule (serving_apart W hW reqs jobs)
    (s := (dispatchT W d r, reqs[r]?, [])) ⟨by simp [serving, hi], rfl, rfl⟩
  obtain ⟨n, o', q', new, h1, h2⟩ := steps_run (dispatch_local hW d r) reqs[r]?
  obtain ⟨h3, h4, h5⟩ := h2 { reqs := reqs } rfl
  rw [dispatchT_run] at h3 h4 h5
  generalize List.count i schedule = m at hs
  generalize hx : Share.steps m (dispatchT W d r, reqs[r]?, []) = x at hs
  obtain ⟨t, q, es⟩ := x
  obtain ⟨s1, s2, s3⟩ := hs
  rw [hdone] at s1
  injection s1 with s1
  simp only at s1 s2 s3
  subst s1
  have h6 := h1 (m + n) [] (by omega)
  rw [steps_add, hx, steps_done] at h6
  cases h6
  refine ⟨h3.symm, ?_, s2.trans h4.symm⟩
  rw [s3]
  unfold happened
  rw [h5]
  rfl

/-- **C100 (no waiting).** There is a number of turns after which every thread is done, whatever the schedule. -/
theorem C100_done : ∃ n, ∀ schedule : List Nat, (∀ i < jobs.length, n ≤ schedule.count i) →
    ∀ i < jobs.length, ∃ o, ((serving W reqs jobs).runs schedule).threads[i]? = some (.done o) := by
  have hone : ∀ i, ∃ n, ∀ schedule : List Nat, n ≤ schedule.count i → ∀ d r, jobs[i]? = some (d, r) →
      ∃ o, ((serving W reqs jobs).runs schedule).threads[i]? = some (.done o) := by
    intro i
    cases hi : jobs[i]? with
    | none => exact ⟨0, fun _ _ _ _ h => by cases h⟩
    | some j =>
      obtain ⟨d, r⟩ := j
      obtain ⟨n, o', q', new, h1, h2⟩ := steps_run (dispatch_local hW d r) reqs[r]?
      refine ⟨n, fun schedule hle d' r' h => ⟨o', ?_⟩⟩
      have hs := runs_sees hjobs (i := i) (r := r) (by rw [List.getElem?_map, hi]; rfl) schedule (serving_apart W hW reqs jobs)
        (s := (dispatchT W d r, reqs[r]?, [])) ⟨by simp [serving, hi], rfl, rfl⟩
      rw [h1 _ [] hle] at hs
      exact hs.1
  have hall : ∀ k, ∃ n, ∀ i < k, ∀ schedule : List Nat, n ≤ schedule.count i → ∀ d r, jobs[i]? = some (d, r) →
      ∃ o, ((serving W reqs jobs).runs schedule).threads[i]? = some (.done o) := by
    intro k
    induction k with
    | zero => exact ⟨0, fun i hi => absurd hi (Nat.not_lt_zero _)⟩
    | succ k ih =>
      obtain ⟨n, hn⟩ := ih
      obtain ⟨m, hm⟩ := hone k
      refine ⟨max n m, fun i hi schedule hle => ?_⟩
      rcases Nat.lt_succ_iff_lt_or_eq.1 hi with h | rfl
      · exact hn i h schedule (by omega)
      · exact hm schedule (by omega)
  obtain ⟨n, hn⟩ := hall jobs.length
  refine ⟨n, fun schedule hle i hi => hn i hi schedule (hle i hi) jobs[i].1 jobs[i].2 ?_⟩
  rw [List.getElem?_eq_getElem hi]

end

namespace ExThreads

open ExS

theorem minds : MindsItsOwn (world true) where
  methods := by
    intro m f h r v
    cases h
    exact .ret trivial
  middlewares := by
    intro d m hm
    cases hm
  hooks := by
    intro d name h hh
    cases hh

/-- Three requests at the same time: two for the method and one for nothing. -/
def jobs : List (DispId × ReqId) := [(0, 0), (0, 1), (0, 2)]
def reqs : List Req := [request py"POST" [1], request py"POST" [5], request py"POST" [2]]

/-- Every thread gets done, whatever the order, and answers as if it were alone: with 500 where the element is unknown. -/
example : ∃ n, ∀ schedule : List Nat, (∀ i < 3, n ≤ schedule.count i) →
    ∃ resp, ((serving (world true) reqs jobs).runs schedule).threads[1]? = some (.done (.ok resp)) ∧ resp.status = 500 := by
  obtain ⟨n, hn⟩ := C100_done (world true) minds reqs jobs (by decide)
  refine ⟨n, fun schedule hs => ?_⟩
  obtain ⟨o, ho⟩ := hn schedule hs 1 (by decide)
  obtain ⟨rfl, -⟩ := C100_alone (world true) minds reqs jobs (by decide) schedule 1 0 1 rfl o ho
  obtain ⟨resp, h1, h2, -⟩ := C39_unknown (world true) 0 1 { reqs := reqs } _ _ _ none py"sayGoodbye"
    rfl rfl rfl rfl rfl (by decide) rfl plain5 (by simp) rfl ⟨_, _, _, _, rfl, rfl⟩ (fun a h => by cases h.1)
    ⟨by intro m _; show hello.input ≠ _; decide, .inl (by intro s _; rfl)⟩ (by unfold XmlOk; decide)
  exact ⟨resp, by rw [ho, h1], h2⟩

/-- A middleware that changes a request other than the one it is called with. -/
def meddler : World := { world true with
  disp := fun d => { disp true with
    middlewares := if d = 0 then [] else [fun r => .set 0 (request py"POST" [5]) (.next () r fun _ => .raise .valueError)] } }

/-- The number of calls of methods. -/
def calls (es : List Event) : Nat := (es.filter fun | .method .. => true | _ => false).length

/-- Then the answer to the other request may depend on the order. -/
example : calls (((serving meddler [request py"POST" [1], request py"POST" [2]] [(0, 0), (1, 1)]).runs
      (List.replicate 15 0 ++ List.replicate 15 1)).eventsOf 0) = 1 ∧
    calls (((serving meddler [request py"POST" [1], request py"POST" [2]] [(0, 0), (1, 1)]).runs
      (List.replicate 15 1 ++ List.replicate 15 0)).eventsOf 0) = 0 := by decide +kernel

end ExThreads

end Soapfish
