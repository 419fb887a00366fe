import Verif.Spec.Mixed
import Verif.Client
import Verif.Props.Described
import Verif.Props.OverlookedWsdl
/-
C136: one version of SOAP for the whole of a WSDL document.
-/
namespace Soapfish

theorem versionFromXml_12 (x : Xml) : versionFromXml x = .soap12 ↔ AnyBinding12 x := by
  have tag : ∀ (q : QName) (y : Xml), hasTag q y = true ↔ ∃ a t k, y = .elem q a t k := by
    intro q y
    cases y with
    | elem t a s k =>
      simp only [hasTag, decide_eq_true_eq, Xml.elem.injEq]
      exact ⟨fun h => ⟨_, _, _, h, rfl, rfl, rfl⟩, fun ⟨_, _, _, h, _⟩ => h⟩
    | comment => simp [hasTag]
    | pi => simp [hasTag]
  have child : ∀ (x : Xml) (ns n : Str) (y : Xml), (y ∈ kidsOf x ∧ hasTag ⟨some ns, n⟩ y = true) ↔ ChildOf x ns n y := by
    intro x ns n y
    rw [tag]
    constructor
    · rintro ⟨h, a, t, k, rfl⟩
      cases x with
      | elem t a s k => exact ⟨_, _, _, _, _, _, _, rfl, h, rfl⟩
      | comment => cases h
      | pi => cases h
    · rintro ⟨_, _, _, _, a, t, k, rfl, h, rfl⟩
      exact ⟨h, _, _, _, rfl⟩
  have hif : versionFromXml x = .soap12 ↔ (kidsOf x).any (fun b => hasTag ⟨some nsWsdl, py"binding"⟩ b &&
      (kidsOf b).any (hasTag ⟨some Version.soap12.bindingNs, py"binding"⟩)) = true := by
    unfold versionFromXml
    split
    · next h => exact ⟨fun _ => h, fun _ => rfl⟩
    · next h => exact ⟨fun e => (nomatch e), fun e => absurd e h⟩
  rw [hif]
  simp only [List.any_eq_true, Bool.and_eq_true]
  constructor
  · rintro ⟨b, hb, hb', s, hs, hs'⟩
    exact ⟨b, s, (child _ _ _ _).1 ⟨hb, hb'⟩, (child _ _ _ _).1 ⟨hs, hs'⟩⟩
  · rintro ⟨b, s, hb, hs⟩
    obtain ⟨h1, h2⟩ := (child _ _ _ _).2 hb
    obtain ⟨h3, h4⟩ := (child _ _ _ _).2 hs
    exact ⟨b, h1, h2, s, h3, h4⟩

theorem portsFor_version {d : Val} {server : Bool} {v : Version} {ports : List Val} {os : List PortObj}
    (h : PortsFor d server v ports os) : ∀ o ∈ os, o.service.version = v := by
  induction h with
  | nil => intro o ho; cases ho
  | soap _ _ _ hp _ ih =>
    intro o ho
    rcases List.mem_cons.1 ho with rfl | ho
    · exact hp.version
    · exact ih o ho
  | other _ _ _ _ ih => exact ih

/-- **C136.** Let code be generated from a WSDL document `x` with any description `d` — its own, or that with what it imports —
and imported.  If any binding in the document is for SOAP 1.2, every service is for SOAP 1.2, whatever the binding of its own
port; otherwise every service is for SOAP 1.1. -/
theorem C136_versions {digest : Str → Str} {ok : Str → Bool} {prefixes : List (Option Str)} {n limit : Nat} {server : Bool}
    {x : Xml} {d : Val} {m : PyWsdlModule} {G : Globals} {os : List PortObj}
    (hm : wsdlToPy digest ok prefixes n server (versionFromXml x) d = .ok m) (he : execWsdl limit m = .ok (G, os)) :
    (AnyBinding12 x → ∀ o ∈ os, o.service.version = .soap12) ∧ (¬ AnyBinding12 x → ∀ o ∈ os, o.service.version = .soap11) := by
  obtain ⟨ports, _, hp⟩ := C92_services hm he
  have hv := portsFor_version hp
  constructor
  · intro h o ho
    rw [hv o ho, (versionFromXml_12 x).2 h]
  · intro h o ho
    rw [hv o ho]
    cases hx : versionFromXml x with
    | soap11 => rfl
    | soap12 => exact absurd ((versionFromXml_12 x).1 hx) h

theorem callDoc_root {W : World} {S : Service} {m : Method} {param header : Val} {doc : Xml}
    (h : callDoc W S m param header = .ok doc) : ∃ a t k, doc = .elem ⟨some S.version.envelopeNs, py"Envelope"⟩ a t k := by
  obtain ⟨tag, _, h⟩ := bind_eq_ok.1 h
  obtain ⟨_, _, h⟩ := bind_eq_ok.1 h
  obtain ⟨_, _, h⟩ := bind_eq_ok.1 h
  obtain ⟨_, _, h⟩ := bind_eq_ok.1 h
  obtain ⟨_, _, h⟩ := bind_eq_ok.1 h
  obtain ⟨_, _, h⟩ := bind_eq_ok.1 h
  obtain ⟨env, _, h⟩ := bind_eq_ok.1 h
  unfold toXml at h
  split at h
  · obtain ⟨o, _, h⟩ := bind_eq_ok.1 h
    injection h with h
    subst h
    cases S.version <;> exact ⟨_, _, _, rfl⟩
  · cases h

/-- **C136.** Nothing but messages of the version of its service is sent by a client: what a call gives is settled by the
answers to such messages. -/
theorem C136_sent (W : World) (S : Service) (post post' : Dict Str → Bytes → Except Exn Bytes) (op : Str) (param header : Val)
    (h : ∀ headers x, (match S.version with | .soap11 => Message11 headers x | .soap12 => Message12 headers x) →
      post headers (W.write x) = post' headers (W.write x)) :
    stubCall W S post op param header = stubCall W S post' op param header := by
  unfold stubCall
  cases S.getMethod W op with
  | error e => rfl
  | ok m =>
    cases hd : callDoc W S (W.method m) param header with
    | error e => simp [hd, raised, bind, Except.bind]
    | ok doc =>
      obtain ⟨a, t, k, hdoc⟩ := callDoc_root hd
      have := h (S.version.requestHeaders (W.method m).soapAction) doc (by
        cases hv : S.version with
        | soap11 => exact ⟨_, a, t, k, rfl, by rw [hdoc, hv]; rfl⟩
        | soap12 => exact ⟨(W.method m).soapAction, a, t, k, rfl, by rw [hdoc, hv]; rfl⟩)
      simp only [raised, bind, Except.bind, hd, this]

namespace ExMixed
open ExOverlookedWsdl

def soap12 (n : Str) (a : List (Str × Str)) : Xml :=
  .elem ⟨some py"http://schemas.xmlsoap.org/wsdl/soap12/", n⟩ (a.map fun p => (⟨none, p.1⟩, p.2)) none []

def bindingOf (n : Str) (el : Str → List (Str × Str) → Xml) : Xml :=
  wd py"binding" [(py"name", n), (py"type", py"b:pt")]
    [el py"binding" [(py"transport", py"http://schemas.xmlsoap.org/soap/http")],
     wd py"operation" [(py"name", py"ask")] [el py"operation" [(py"soapAction", py"x")],
      wd py"input" [] [el py"body" [(py"use", py"literal")]], wd py"output" [] [el py"body" [(py"use", py"literal")]]]]

/-- A service with a port for SOAP 1.1 and another for SOAP 1.2, as commonly published. -/
def both : Xml :=
  wd py"definitions" [(py"targetNamespace", py"urn:b")]
    (schemaWith [] :: rest.take 2 ++ [bindingOf py"b11" soap, bindingOf py"b12" soap12,
     wd py"service" [(py"name", py"sv")]
      [wd py"port" [(py"name", py"old"), (py"binding", py"b:b11")] [soap py"address" [(py"location", py"http://h/s")]],
       wd py"port" [(py"name", py"new"), (py"binding", py"b:b12")] [soap12 py"address" [(py"location", py"http://h/s")]]]])

theorem both_12 : AnyBinding12 both :=
  ⟨bindingOf py"b12" soap12, soap12 py"binding" [(py"transport", py"http://schemas.xmlsoap.org/soap/http")],
    ⟨_, _, _, _, _, _, _, rfl, by simp, rfl⟩, ⟨_, _, _, _, _, _, _, rfl, by simp, rfl⟩⟩

/-- Without any binding for SOAP 1.2 -/
theorem bare_11 : ¬ AnyBinding12 bareShop := fun h => nomatch ((versionFromXml_12 bareShop).2 h).symm.trans (show versionFromXml bareShop = .soap11 from rfl)

/-- The service of the old port is for SOAP 1.2, too. -/
example : ∃ d m G os, parseCls (specTable (versionFromXml both)) 12 12 wDefinitions both = .ok d ∧
    wsdlToPy (fun _ => py"01234") (fun _ => true) [some py"xs"] 5 false (versionFromXml both) d = .ok m ∧
    execWsdl 50 m = .ok (G, os) ∧ os.map (fun o => (o.service.name, o.service.version)) = [(py"old", .soap12), (py"new", .soap12)] :=
  ⟨_, _, _, _, rfl, rfl, rfl, rfl⟩

/-- A message of SOAP 1.2 is none of SOAP 1.1. -/
example (headers : Dict Str) (x : Xml) (h : Message12 headers x) : ¬ Message11 headers x := by
  rintro ⟨_, _, _, _, h1, _⟩
  obtain ⟨_, _, _, _, h2, _⟩ := h
  rw [h1] at h2
  cases h2

example : Message12 [(py"Content-Type", py"application/soap+xml; action=\"x\"")]
    (.elem ⟨some py"http://www.w3.org/2003/05/soap-envelope", py"Envelope"⟩ [] none []) := ⟨py"x", _, _, _, rfl, rfl⟩

end ExMixed

end Soapfish
