import Verif.Spec.Used
import Verif.Trim
import Verif.Props.OverlookedWsdl
/-
What of a WSDL document is read, but not used by the generators (soapfish/templates/wsdl.jinja2, soapfish/wsdl.py): C135.
-/
set_option maxRecDepth 8000
namespace Soapfish

theorem used_attrs (v : Version) (c : WsdlConstruct) : ∀ f ∈ (specTable v c.cls).attrs,
    f.name ∈ unread ∨ f.name ∈ c.usedAttributes ∨ c ∈ [.fault, .soapBody, .soapHeaderFault, .soapFault] := by
  cases v <;> cases c <;> decide +kernel

theorem used_names (v : Version) (c : WsdlConstruct) : ∀ f ∈ (specTable v c.cls).elems, ∀ n ∈ wsdlVocabulary,
    f.matchesTag ⟨none, n⟩ = true → f.name ∈ unread ∨ n ∈ c.usedChildren.map (·.1) ∨ n = py"schema" ∨ c = .fault := by
  cases v <;> cases c <;> decide +kernel

theorem used_types (v : Version) (c : WsdlConstruct) : ∀ f ∈ (specTable v c.cls).elems, ∀ p ∈ c.usedChildren,
    f.matchesTag ⟨none, p.1⟩ = true → f.type.isCls p.2.cls = true := by
  cases v <;> cases c <;> decide +kernel

/-- The parts of documents that are used. -/
def WsdlConstruct.IsUsed (c : WsdlConstruct) : Prop := c ∉ [WsdlConstruct.fault, .soapBody, .soapHeaderFault, .soapFault]

theorem usedChildren_used (c : WsdlConstruct) : ∀ p ∈ c.usedChildren, p.2.IsUsed := by
  unfold WsdlConstruct.IsUsed
  cases c <;> decide

/-- What is read alike, but for what is not used. -/
inductive UsedAlike : ClsId → Xml → Xml → Prop where
  | xsd {c x y} : AlikeXsd c x y → UsedAlike c x y
  | elem {c q q' a a' t t' k k'} : c.IsUsed → SameUsedAttributes c a a' → SameUsedParts c k k' →
      UsedAlike c.cls (.elem q a t k) (.elem q' a' t' k')

theorem subSim_used {f : Field} {k k' : Xml} (h : SubSim AlikeXsd f k k') : SubSim UsedAlike f k k' := by
  unfold SubSim at h ⊢
  refine ⟨h.1, ?_⟩
  have h2 := h.2
  revert h2
  cases f.type with
  | simple s => exact id
  | complex c => exact .xsd
  | any => exact id

theorem unused_skip (v : Version) {c : WsdlConstruct} (hc : c.IsUsed) {u : Xml} (hu : UnusedWsdl c u) {f : Field}
    (hf : f ∈ (specTable v c.cls).elems) (hn : f.name ∉ unread) (ks : List Xml) : findSub f (u :: ks) = findSub f ks := by
  rcases hu with rfl | ⟨q, a, t, k, rfl, hq, hk, hs⟩
  · rfl
  · have hm : f.matchesTag q = false := by
      cases hm : f.matchesTag q with
      | false => rfl
      | true =>
        rcases used_names v _ f hf _ hq (by rw [← matchesTag_loc]; exact hm) with h | h | h | h
        · exact absurd h hn
        · exact absurd h hk
        · exact absurd h hs
        · rw [h] at hc; exact absurd (List.mem_cons_self ..) hc
    simp only [findSub, hm]
    cases findSub f ks <;> rfl

theorem sameUsedParts_find (v : Version) {c : WsdlConstruct} {k k' : List Xml} (h : SameUsedParts c k k') : c.IsUsed →
    ∀ f ∈ (specTable v c.cls).elems, f.name ∉ unread → ∀ l, findSub f k = .ok l →
      ∃ l', findSub f k' = .ok l' ∧ All2 (SubSim UsedAlike f) l l' := by
  induction h with
  | nil => intro _ f _ _ l hl; injection hl with hl; subst hl; exact ⟨[], rfl, .nil⟩
  | left hu _ ih =>
    intro hc f hf hn l hl
    rw [unused_skip v hc hu hf hn] at hl
    exact ih hc f hf hn l hl
  | right hu _ ih =>
    intro hc f hf hn l hl
    rw [unused_skip v hc hu hf hn]
    exact ih hc f hf hn l hl
  | @both c c' q q' a a' t t' k k' ks ks' hcc hq hat hk _ _ ih =>
    intro hc f hf hn l hl
    refine find_both hq hl (ih hc f hf hn) fun hm => ⟨hat.1, ?_⟩
    rw [isCls_iff.1 (used_types v c f hf _ hcc (by rw [← matchesTag_loc]; exact hm))]
    exact .elem (usedChildren_used c _ hcc) hat hk
  | @schema q q' a a' t t' k k' ks ks' hq hq' hs _ ih =>
    intro hc f hf hn l hl
    obtain ⟨_, _, _, _, _, _, _, _, h1, h2, hat, hk⟩ := hs
    cases h1
    cases h2
    refine find_both (hq.trans hq'.symm) hl (ih hc f hf hn) fun hm => ⟨hat.1, ?_⟩
    rw [isCls_iff.1 (wsdl_schema v f hf (by rw [← hq, ← matchesTag_loc]; exact hm))]
    exact .xsd (.elem (c := .schema) hat hk)

theorem usedAlike_isTrimSim (v : Version) : IsTrimSim (specTable v) UsedAlike where
  attrs := by
    rintro c x y (h | ⟨hc, hat, _⟩) f hf
    · exact .inr ((alikeXsd_isSim v).attrs c x y h f hf)
    · rcases used_attrs v _ f hf with h | h | h
      · exact .inl h
      · exact .inr (hat.2 _ h)
      · exact absurd h hc
  subs := by
    rintro c x y (h | ⟨hc, hat, hk⟩) f hf
    · refine .inr fun l l' hl hl' => ?_
      have hch : (specTable v c).choice = false := by cases h; exact (overlooked_shape v _).2
      obtain ⟨l'', h1, h2⟩ := (alikeXsd_isSim v).subs c x y h hch f hf l hl
      rw [hl'] at h1
      rw [Except.ok.inj h1]
      exact h2.imp fun _ _ => subSim_used
    · by_cases hn : f.name ∈ unread
      · exact .inl hn
      · refine .inr fun l l' hl hl' => ?_
        obtain ⟨l'', h1, h2⟩ := sameUsedParts_find v hk hc f hf hn l hl
        have h3 : Except.ok l' = Except.ok l'' := Eq.trans (Eq.symm hl') h1
        rw [Except.ok.inj h3]
        exact h2
  shape := by
    rintro c x y (h | ⟨_, _, _⟩)
    · cases h
      exact ⟨List.isEmpty_iff.1 (overlooked_shape v _).1, (overlooked_shape v _).2⟩
    · exact ⟨List.isEmpty_iff.1 (wsdl_shape v _).1, (wsdl_shape v _).2⟩

/-- **C135 (documents).** WSDL documents that differ only by what is not used - documentation, bodies, faults, and what is not
looked at - give the same code or none, if both are read. -/
theorem C135_documents (digest : Str → Str) (ok : Str → Bool) (prefixes : List (Option Str)) (v : Version) (N n limit : Nat)
    (server : Bool) (x y : Xml) (h : SameUse x y) (d d' : Val) (hd : parseCls (specTable v) N n wDefinitions x = .ok d)
    (hd' : parseCls (specTable v) N n wDefinitions y = .ok d') :
    wsdlToPy digest ok prefixes limit server v d = wsdlToPy digest ok prefixes limit server v d' := by
  obtain ⟨q, a, t, k, q', a', t', k', rfl, rfl, hat, hk⟩ := h
  have ht := parse_trim (usedAlike_isTrimSim v) N n wDefinitions _ _ d d'
    (.elem (c := .definitions) (by unfold WsdlConstruct.IsUsed; decide) hat hk) hd hd'
  refine C135_unread digest ok prefixes v limit server d d' ?_
  rw [← forget_trim d, ← forget_trim d', ht]

namespace ExOverlookedWsdl

theorem faulty_same : SameUse faultyShop bareShop := by
  have at' : ∀ c a, SameUsedAttributes c a a := fun _ _ => ⟨rfl, fun _ _ => rfl⟩
  have un : ∀ {c n a t k}, n ∈ wsdlVocabulary → n ∉ c.usedChildren.map (·.1) → n ≠ py"schema" →
      UnusedWsdl c (.elem ⟨some nsWsdl, n⟩ a t k) := fun h1 h2 h3 => .inr ⟨_, _, _, _, rfl, h1, h2, h3⟩
  have body : ∀ {a a' : List (Str × Str)} {c : WsdlConstruct}, c = .input ∨ c = .output →
      SameUsedParts c [soap py"body" a] [soap py"body" a'] := by
    rintro a a' c (rfl | rfl)
    · exact .left (.inr ⟨_, _, _, _, rfl, by decide, by decide, by decide⟩)
        (.right (.inr ⟨_, _, _, _, rfl, by decide, by decide, by decide⟩) .nil)
    · exact .left (.inr ⟨_, _, _, _, rfl, by decide, by decide, by decide⟩)
        (.right (.inr ⟨_, _, _, _, rfl, by decide, by decide, by decide⟩) .nil)
  refine ⟨_, _, _, _, _, _, _, _, rfl, rfl, at' _ _, ?_⟩
  refine .both (c' := .types) (by decide) rfl (at' _ _) (.schema rfl rfl ?_ .nil) ?_
  · exact ⟨_, _, _, _, _, _, _, _, rfl, rfl, ⟨rfl, fun _ _ => rfl⟩,
      .both (c' := .element) (by decide) rfl ⟨rfl, fun _ _ => rfl⟩ .nil
        (.both (c' := .complexType) (by decide) rfl ⟨rfl, fun _ _ => rfl⟩ .nil .nil)⟩
  · exact .both (c' := .message) (by decide) rfl (at' _ _) (.both (c' := .part) (by decide) rfl (at' _ _) .nil .nil) <|
      .both (c' := .portType) (by decide) rfl (at' _ _)
        (.both (c' := .operation) (by decide) rfl (at' _ _)
          (.left (un (by decide) (by decide) (by decide))
            (.both (c' := .input) (by decide) rfl (at' _ _) .nil (.both (c' := .output) (by decide) rfl (at' _ _) .nil
              (.left (un (by decide) (by decide) (by decide)) .nil)))) .nil) <|
      .both (c' := .binding) (by decide) rfl (at' _ _)
        (.both (c' := .soapBinding) (by decide) rfl (at' _ _) .nil
          (.both (c' := .operation) (by decide) rfl (at' _ _)
            (.both (c' := .soapOperation) (by decide) rfl (at' _ _) .nil
              (.both (c' := .input) (by decide) rfl (at' _ _) (body (.inl rfl))
                (.both (c' := .output) (by decide) rfl (at' _ _) (body (.inr rfl)) .nil))) .nil)) <|
      .both (c' := .service) (by decide) rfl (at' _ _)
        (.both (c' := .port) (by decide) rfl (at' _ _) (.both (c' := .soapAddress) (by decide) rfl (at' _ _) .nil .nil) .nil) .nil

/-- The fault and the encoded body make no difference; both documents are read, as shown above. -/
example (d d' : Val) (hd : parseCls (specTable .soap11) 12 12 wDefinitions faultyShop = .ok d)
    (hd' : parseCls (specTable .soap11) 12 12 wDefinitions bareShop = .ok d') (server : Bool) :
    wsdlToPy (fun _ => py"01234") (fun _ => true) [some py"xs"] 5 server .soap11 d =
      wsdlToPy (fun _ => py"01234") (fun _ => true) [some py"xs"] 5 server .soap11 d' :=
  C135_documents _ _ _ _ _ _ _ _ _ _ faulty_same d d' hd hd'

end ExOverlookedWsdl

end Soapfish
