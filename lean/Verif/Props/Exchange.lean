import Verif.Spec.Exchange
import Verif.Props.Mixed
import Verif.Props.Envelopes
import Verif.Props.Calls
/-
C138: what a call sends, and what of the answer counts.
-/
namespace Soapfish

theorem proper_request {W : World} {t : Stub} {m : MethodId} {param header : Val} {doc : Xml}
    (h : callDoc W t.service (W.method m) param header = .ok doc) :
    ProperRequest W t { location := t.location, auth := t.auth,
                        headers := t.service.version.requestHeaders (W.method m).soapAction, data := W.write doc } := by
  refine ⟨rfl, ?_, ?_, doc, rfl, ?_⟩
  · intro u hu hne
    show t.auth = _
    unfold Stub.auth
    rw [hu]
    cases u with
    | nil => exact absurd rfl hne
    | cons c u => rfl
  · rintro (hu | hu) <;> (show t.auth = _; unfold Stub.auth; rw [hu])
  · obtain ⟨a, s, k, hdoc⟩ := callDoc_root h
    cases hv : t.service.version with
    | soap11 => exact ⟨_, a, s, k, rfl, by rw [hdoc, hv]; rfl⟩
    | soap12 => exact ⟨(W.method m).soapAction, a, s, k, rfl, by rw [hdoc, hv]; rfl⟩

/-- **C138.** A call sends one request, or none and raises an exception of its own; nothing sent before is touched.  The request
goes to the address of the stub, with credentials if and only if there is a name, in the version of the service. -/
theorem C138_once (W : World) (net : List Posted → Posted → Except Exn HttpAnswer) (t : Stub) (op : Str) (param header : Val)
    (sent : List Posted) :
    ((t.call W net op param header sent).2 = sent ∧ ∃ e, (t.call W net op param header sent).1 = .error (.other e)) ∨
    ∃ p, (t.call W net op param header sent).2 = sent ++ [p] ∧ ProperRequest W t p := by
  unfold Stub.call
  cases t.service.getMethod W op with
  | error e => exact .inl ⟨rfl, e, rfl⟩
  | ok m =>
    cases hd : callDoc W t.service (W.method m) param header with
    | error e => exact .inl ⟨by simp only [hd], e, by simp only [hd]⟩
    | ok doc =>
      refine .inr ⟨_, ?_, proper_request hd⟩
      simp only [hd]
      split <;> rfl

/-- **C138.** In any number of calls, what is sent is what the single calls send, in their order: each sends one proper request, or
none and raises an exception of its own. -/
theorem C138_calls (W : World) (net : List Posted → Posted → Except Exn HttpAnswer) (t : Stub) (l : List (Str × Val × Val))
    (sent : List Posted) : (t.calls W net l sent).1.length = l.length ∧
      ∃ parts : List (List Posted), (t.calls W net l sent).2 = sent ++ parts.flatten ∧
        All2 (fun outcome part => (part = [] ∧ ∃ e, outcome = .error (.other e)) ∨ ∃ p, part = [p] ∧ ProperRequest W t p)
          (t.calls W net l sent).1 parts := by
  induction l generalizing sent with
  | nil => exact ⟨rfl, [], by simp [Stub.calls], .nil⟩
  | cons c l ih =>
    obtain ⟨h1, parts, h2, h3⟩ := ih (t.call W net c.1 c.2.1 c.2.2 sent).2
    refine ⟨by simp [Stub.calls, h1], ?_⟩
    rcases C138_once W net t c.1 c.2.1 c.2.2 sent with ⟨h, he⟩ | ⟨p, h, hp⟩
    · refine ⟨[] :: parts, ?_, .cons (.inl ⟨rfl, he⟩) h3⟩
      simp only [Stub.calls]
      rw [h2, h]
      rfl
    · refine ⟨[p] :: parts, ?_, .cons (.inr ⟨p, rfl, hp⟩) h3⟩
      simp only [Stub.calls]
      rw [h2, h]
      simp

/-- **C138.** Of the answer only the content counts: with other statuses and other headers, any number of calls send the same and
have the same outcomes.  So an answer with status 404 or 500 is taken for a success, if it has a proper envelope. -/
theorem C138_status (W : World) (net net' : List Posted → Posted → Except Exn HttpAnswer)
    (h : ∀ sent p, (∃ e, net sent p = .error e ∧ net' sent p = .error e) ∨
      ∃ r r', net sent p = .ok r ∧ net' sent p = .ok r' ∧ r.content = r'.content)
    (t : Stub) (l : List (Str × Val × Val)) (sent : List Posted) : t.calls W net l sent = t.calls W net' l sent := by
  have one : ∀ op param header sent, t.call W net op param header sent = t.call W net' op param header sent := by
    intro op param header sent
    unfold Stub.call
    cases t.service.getMethod W op with
    | error e => rfl
    | ok m =>
      cases hd : callDoc W t.service (W.method m) param header with
      | error e => simp only [hd]
      | ok doc =>
        simp only [hd]
        rcases h sent { location := t.location, auth := t.auth,
                        headers := t.service.version.requestHeaders (W.method m).soapAction, data := W.write doc } with
          ⟨e, h1, h2⟩ | ⟨r, r', h1, h2, h3⟩
        · rw [h1, h2]
        · rw [h1, h2]
          simp only [h3]
  induction l generalizing sent with
  | nil => rfl
  | cons c l ih => simp only [Stub.calls, one, ih]

/-- **C138.** An answer that is no XML document, like the page of a web server for an error, is an XMLSyntaxError, whatever its
status: the status is lost. -/
theorem C138_page (W : World) (net : List Posted → Posted → Except Exn HttpAnswer) (t : Stub) (op : Str) (param header : Val)
    (sent : List Posted) (p : Posted) (r : HttpAnswer) (hp : (t.call W net op param header sent).2 = sent ++ [p])
    (hr : net sent p = .ok r) (hx : W.read r.content = none) :
    (t.call W net op param header sent).1 = .error (.other .xmlSyntaxError) := by
  revert hp
  unfold Stub.call
  cases t.service.getMethod W op with
  | error e => intro hp; simp at hp
  | ok m =>
    cases hd : callDoc W t.service (W.method m) param header with
    | error e => intro hp; simp [hd] at hp
    | ok doc =>
      simp only [hd]
      intro hp
      have hp : sent ++ [(⟨t.location, t.auth, t.service.version.requestHeaders (W.method m).soapAction, W.write doc⟩ : Posted)] =
          sent ++ [p] := by
        rw [← hp]
        split <;> rfl
      have hp := List.append_cancel_left hp
      injection hp with hp
      rw [hp, hr]
      show handleResponse W t.service (W.method m) r.content = _
      unfold handleResponse
      rw [hx]

/-- **C138.** Otherwise a call is what the other properties say of calls (C52, C53, C105), with the content of the answer. -/
theorem C138_call (W : World) (net : List Posted → Posted → Except Exn HttpAnswer) (t : Stub) (op : Str) (param header : Val)
    (sent : List Posted) : (t.call W net op param header sent).1 = stubCall W t.service (fun headers data =>
      (net sent { location := t.location, auth := t.auth, headers := headers, data := data }).map (·.content)) op param header := by
  unfold Stub.call stubCall
  cases t.service.getMethod W op with
  | error e => rfl
  | ok m =>
    cases hd : callDoc W t.service (W.method m) param header with
    | error e => simp only [raised, bind, Except.bind, hd]
    | ok doc =>
      simp only [raised, bind, Except.bind, hd]
      cases hn : net sent { location := t.location, auth := t.auth,
                            headers := t.service.version.requestHeaders (W.method m).soapAction, data := W.write doc } with
      | error e => rfl
      | ok r => rfl

namespace ExExchange
open ExC

/-- A stub with a name and a password, at an address of its own -/
def stub : Stub := { username := some py"bob", password := some py"secret", service := (world.disp 0).service, location := py"http://h/s" }

/-- A network where every answer has the status 404, with the greeting nevertheless at the first time and a page at the second -/
def net : List Posted → Posted → Except Exn HttpAnswer
  | [], _ => .ok { status := 404, headers := [], content := [2] }
  | _ :: _, _ => .ok { status := 404, headers := [], content := [60, 104] }

/-- Two calls: two requests with the credentials; the first is a success, the second an XMLSyntaxError.  The call of an unknown
operation sends nothing. -/
example : ∃ resp, stub.calls world net
    [(py"SayHello", .inst 8 [(py"name", .atom (.str py"Bob"))] none, Val.none), (py"Unknown", Val.none, Val.none),
     (py"SayHello", .inst 8 [(py"name", .atom (.str py"Bob"))] none, Val.none)] [] =
    ([.ok resp, .error (.other .stopIteration), .error (.other .xmlSyntaxError)],
     List.replicate 2 { location := py"http://h/s", auth := some (py"bob", some py"secret"),
                        headers := [(py"Content-Type", py"text/xml"), (py"SOAPAction", py"urn:x/hello")], data := [1] }) :=
  ⟨_, rfl⟩

/-- The default address of a new stub, and no credentials without a name -/
example : ∃ t, newStub py"${scheme}://${host}/s" py"http" py"h" (world.disp 0).service none (some py"secret") .none = .ok t ∧
    t.location = py"http://h/s" ∧ t.auth = none := ⟨_, rfl, by decide, rfl⟩

end ExExchange

end Soapfish
