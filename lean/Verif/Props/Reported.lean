import Verif.Props.Envelopes
/-
C53, C137: which answers are reported as faults.
-/
namespace Soapfish

/-- The value of a field for a single element of a complex type is none, NIL, or read from the last child with its name. -/
theorem single_complex {T : Table} {N n : Nat} {c c' : ClsId} {x : Xml} {v w : Val} {f : Field} (hn : NamesNodup (T c))
    (hch : (T c).choice = false) (h : parseCls T N (n + 1) c x = .ok v) (hf : f ∈ (T c).fields) (hk : f.kind = .element)
    (ht : f.type = .complex c') (htag : f.tagname = none) (hdef : EmptyValue T f w → w = Val.none) (hw : v.getA f.name = .ok w) :
    w = Val.none ∨ w = .nil ∨ ∃ u, LastChild x f.name u ∧ parseCls T N n c' u = .ok w := by
  obtain ⟨w', hw', hr⟩ := parse_single hn hch h hf (.inl hk) htag
  rw [hw] at hw'
  injection hw' with hw'
  subst hw'
  rcases hr with ⟨u, hu, hr⟩ | ⟨_, he⟩
  · cases hr with
    | nil => exact .inr (.inl rfl)
    | simple _ ht' => rw [ht] at ht'; cases ht'
    | complex _ ht' hp =>
      rw [ht] at ht'
      injection ht' with ht'
      subst ht'
      exact .inr (.inr ⟨u, hu, hp⟩)
  · exact .inl (hdef he)

/-- **C53, C137.** If a call raises a SOAPError, the answer has a Fault in its Body; for SOAP 1.2 it is one with a Code and a Reason:
others are other exceptions. -/
theorem C137_reported (W : World) (S : Service) (m : Method) (content : Bytes) (code message actor : Val)
    (h : handleResponse W S m content = .error (.fault code message actor)) :
    ∃ doc body fault, W.read content = some doc ∧ LastChild doc py"Body" body ∧ LastChild body py"Fault" fault ∧
      (S.version = .soap12 → (∃ c, LastChild fault py"Code" c) ∧ ∃ r, LastChild fault py"Reason" r) := by
  have raisedE : ∀ {α β : Type} {x : Except Exn α} {f : α → Except CallError β} {a b c},
      (raised x >>= f) = .error (.fault a b c) → ∃ y, x = .ok y ∧ f y = .error (.fault a b c) := by
    intro α β x f a b c h
    cases x with
    | error e => cases h
    | ok y => exact ⟨y, rfl, h⟩
  unfold handleResponse at h
  cases hr : W.read content with
  | none => rw [hr] at h; cases h
  | some doc =>
    rw [hr] at h
    obtain ⟨env, henv, h⟩ := raisedE h
    unfold readAnswer at h
    obtain ⟨hd, _, h⟩ := raisedE h
    obtain ⟨ah, _, h⟩ := raisedE h
    obtain ⟨body, hbody, h⟩ := raisedE h
    obtain ⟨fault, hfault, h⟩ := raisedE h
    split at h
    · obtain ⟨v, _, h⟩ := raisedE h
      cases h
    · next hnone =>
      obtain ⟨⟨c, ms, ac⟩, hparts, _⟩ := raisedE h
      unfold parseEnvelope World.table at henv
      cases hD : W.depth with
      | zero => rw [hD] at henv; cases henv
      | succ D =>
        rw [hD] at henv
        rcases single_complex (f := { name := py"Body", kind := .element, type := .complex cBody })
          (soap_names S.version W.user 5 (by decide)) (soap_choice S.version W.user 5 (by decide)) henv (by simp [soapTable]) rfl rfl rfl
          (by intro he
              have he : Except.ok Val.none = Except.ok (ε := Exn) body := he
              injection he with he; exact he.symm) hbody with rfl | rfl | ⟨b, hb, hp⟩
        · cases hfault
        · cases hfault
        · cases D with
          | zero => cases hp
          | succ D =>
            rcases single_complex (f := { name := py"Fault", kind := .element, type := .complex cFault, required := false })
              (soap_names S.version W.user 3 (by decide)) (soap_choice S.version W.user 3 (by decide)) hp (by simp [soapTable]) rfl rfl rfl
              (by intro he
                  have he : Except.ok Val.none = Except.ok (ε := Exn) fault := he
                  injection he with he; exact he.symm) hfault with rfl | rfl | ⟨f, hf, hpf⟩
            · exact absurd rfl hnone
            · exfalso
              cases hv : S.version <;> (rw [hv] at hparts; cases hparts)
            · refine ⟨doc, b, f, rfl, hb, hf, fun hv => ?_⟩
              rw [hv] at hparts hpf
              obtain ⟨cv, hcv, hparts⟩ := bind_eq_ok.1 hparts
              obtain ⟨_, hcv', hparts⟩ := bind_eq_ok.1 hparts
              obtain ⟨rv, hrv, hparts⟩ := bind_eq_ok.1 hparts
              obtain ⟨_, hrv', hparts⟩ := bind_eq_ok.1 hparts
              cases D with
              | zero => cases hpf
              | succ D =>
                constructor
                · rcases single_complex (f := { name := py"Code", kind := .element, type := .complex cCode })
                    (soap_names .soap12 W.user 4 (by decide)) (soap_choice .soap12 W.user 4 (by decide)) hpf
                    (by simp [soapTable, Version.faultFields]) rfl rfl rfl
                    (by intro he
                        have he : Except.ok Val.none = Except.ok (ε := Exn) cv := he
                        injection he with he; exact he.symm) hcv with rfl | rfl | ⟨u, hu, _⟩
                  · cases hcv'
                  · cases hcv'
                  · exact ⟨u, hu⟩
                · rcases single_complex (f := { name := py"Reason", kind := .element, type := .complex cReason })
                    (soap_names .soap12 W.user 4 (by decide)) (soap_choice .soap12 W.user 4 (by decide)) hpf
                    (by simp [soapTable, Version.faultFields]) rfl rfl rfl
                    (by intro he
                        have he : Except.ok Val.none = Except.ok (ε := Exn) rv := he
                        injection he with he; exact he.symm) hrv with rfl | rfl | ⟨u, hu, _⟩
                  · cases hrv'
                  · cases hrv'
                  · exact ⟨u, hu⟩

namespace ExReported
open ExS

/-- A fault of SOAP 1.2, and the same without its Code -/
def bare : Xml :=
  let ns := some py"http://www.w3.org/2003/05/soap-envelope"
  .elem ⟨ns, py"Envelope"⟩ [] none [.elem ⟨ns, py"Body"⟩ [] none [.elem ⟨ns, py"Fault"⟩ [] none
    [.elem ⟨ns, py"Reason"⟩ [] none [.elem ⟨ns, py"Text"⟩ [] (some py"no") []]]]]

def reading (x : Xml) : World := { world true with read := fun _ => some x }

def service12 : Service := { (disp true).service with version := .soap12 }

example (m : Method) (h : m.outputHeader = none) :
    handleResponse (reading (faultDoc .soap12 py"ns0:Sender" py"no" none)) service12 m [1] =
      .error (.fault (.atom (.str py"ns0:Sender")) (.atom (.str py"no")) Val.none) := by
  unfold handleResponse readAnswer answerHeader
  rw [h]
  rfl

example (m : Method) (c ms a : Val) : handleResponse (reading bare) service12 m [1] ≠ .error (.fault c ms a) := by
  have only : ∀ {x y u : Xml} {n : Str}, x.kids = [y] → LastChild x n u → u = y := by
    rintro x y u n h ⟨p, q, e, _, _⟩
    have : u ∈ [y] := by rw [← h, e]; simp
    simpa using this
  intro h
  obtain ⟨doc, b, f, hr, hb, hf, hv⟩ := C137_reported _ _ _ _ _ _ _ h
  obtain ⟨⟨u, hu⟩, _⟩ := hv rfl
  injection hr with hr
  subst hr
  obtain rfl := only rfl hb
  obtain rfl := only rfl hf
  obtain rfl := only rfl hu
  obtain ⟨_, _, _, ⟨_, _, _, _, e, hl⟩, _⟩ := hu
  injection e with e
  subst e
  cases hl

end ExReported

end Soapfish
