import Verif.Spec.OverlookedWsdl
import Verif.Props.Overlooked
import Verif.ServiceForget
/-
What of a WSDL document the generators do not look at (soapfish/wsdl11.py, soapfish/wsdl12.py): C135.
-/
set_option maxRecDepth 8000
namespace Soapfish

/-- The class of soapfish/wsdl11.py and soapfish/wsdl12.py for a part of a document. -/
def WsdlConstruct.cls : WsdlConstruct → ClsId
  | .definitions => wDefinitions | .import_ => wImport | .types => wTypes | .message => wMessage | .part => wPart
  | .portType => wPortType | .binding => wBinding | .operation => wOperation | .input => wInput | .output => wOutput
  | .fault => wFault | .service => wService | .port => wPort | .soapBinding => wSoapBinding
  | .soapOperation => wSoapOperation | .soapBody => wSoapBody | .soapHeader => wSoapHeader
  | .soapHeaderFault => wSoapHeaderFault | .soapFault => wSoapFault | .soapAddress => wSoapAddress

/-- Is it a simple type? -/
def FType.isText : FType → Bool
  | .simple _ => true
  | _ => false

theorem wsdl_attrs (v : Version) (c : WsdlConstruct) : ∀ f ∈ (specTable v c.cls).attrs, f.name ∈ c.attributes := by
  cases v <;> cases c <;> decide +kernel

theorem wsdl_shape (v : Version) (c : WsdlConstruct) :
    (specTable v c.cls).groups.isEmpty = true ∧ (specTable v c.cls).choice = false := by
  cases v <;> cases c <;> decide +kernel

theorem wsdl_names (v : Version) (c : WsdlConstruct) : ∀ f ∈ (specTable v c.cls).elems, ∀ n ∈ wsdlVocabulary,
    f.matchesTag ⟨none, n⟩ = true → n ∈ c.children.map (·.1) ∨ n = py"documentation" ∨ n = py"schema" := by
  cases v <;> cases c <;> decide +kernel

theorem wsdl_types (v : Version) (c : WsdlConstruct) : ∀ f ∈ (specTable v c.cls).elems, ∀ p ∈ c.children,
    f.matchesTag ⟨none, p.1⟩ = true → f.type.isCls p.2.cls = true := by
  cases v <;> cases c <;> decide +kernel

theorem wsdl_documentation (v : Version) (c : WsdlConstruct) : ∀ f ∈ (specTable v c.cls).elems,
    f.matchesTag ⟨none, py"documentation"⟩ = true → f.type.isText = true := by
  cases v <;> cases c <;> decide +kernel

theorem wsdl_schema (v : Version) : ∀ f ∈ (specTable v WsdlConstruct.types.cls).elems,
    f.matchesTag ⟨none, py"schema"⟩ = true → f.type.isCls xSchema = true := by
  cases v <;> decide +kernel

/-- What is read alike. -/
inductive AlikeWsdl : ClsId → Xml → Xml → Prop where
  | xsd {c x y} : AlikeXsd c x y → AlikeWsdl c x y
  | elem {c q q' a a' t t' k k'} : SameWsdlAttributes c a a' → SameWsdlParts c k k' →
      AlikeWsdl c.cls (.elem q a t k) (.elem q' a' t' k')

theorem subSim_xsd {f : Field} {k k' : Xml} (h : SubSim AlikeXsd f k k') : SubSim AlikeWsdl f k k' := by
  unfold SubSim at h ⊢
  refine ⟨h.1, ?_⟩
  have h2 := h.2
  revert h2
  cases f.type with
  | simple s => exact id
  | complex c => exact .xsd
  | any => exact id

theorem find_both {S : ClsId → Xml → Xml → Prop} {f : Field} {q q' : QName} {a a' : List (QName × Str)} {t t' : Option Str}
    {k k' ks ks' l : List Xml} (hq : q.loc = q'.loc) (hl : findSub f (.elem q a t k :: ks) = .ok l)
    (ih : ∀ l, findSub f ks = .ok l → ∃ l', findSub f ks' = .ok l' ∧ All2 (SubSim S f) l l')
    (hs : f.matchesTag q = true → SubSim S f (.elem q a t k) (.elem q' a' t' k')) :
    ∃ l', findSub f (.elem q' a' t' k' :: ks') = .ok l' ∧ All2 (SubSim S f) l l' := by
  have hmm : f.matchesTag q' = f.matchesTag q := by rw [matchesTag_loc f q', matchesTag_loc f q, hq]
  simp only [findSub, bind_eq_ok] at hl
  obtain ⟨r, hr, hl⟩ := hl
  injection hl with hl
  obtain ⟨r', hr', ha⟩ := ih r hr
  cases hm : f.matchesTag q with
  | false =>
    rw [hm] at hl
    exact ⟨r', by simp only [findSub, hr', hmm, hm]; rfl, by rw [← hl]; exact ha⟩
  | true =>
    rw [hm] at hl
    refine ⟨.elem q' a' t' k' :: r', by simp only [findSub, hr', hmm, hm]; rfl, ?_⟩
    rw [← hl]
    exact .cons (hs hm) ha

theorem overlookedWsdl_skip (v : Version) {c : WsdlConstruct} {u : Xml} (hu : OverlookedWsdl c u) {f : Field}
    (hf : f ∈ (specTable v c.cls).elems) (ks : List Xml) : findSub f (u :: ks) = findSub f ks := by
  rcases hu with rfl | ⟨q, a, t, k, rfl, hq, hn, hd, hs⟩
  · rfl
  · have hm : f.matchesTag q = false := by
      cases hm : f.matchesTag q with
      | false => rfl
      | true =>
        rcases wsdl_names v _ f hf _ hq (by rw [← matchesTag_loc]; exact hm) with h | h | h
        · exact absurd h hn
        · exact absurd h hd
        · exact absurd h hs
    simp only [findSub, hm]
    cases findSub f ks <;> rfl

theorem sameWsdlParts_find (v : Version) {c : WsdlConstruct} {k k' : List Xml} (h : SameWsdlParts c k k') :
    ∀ f ∈ (specTable v c.cls).elems, ∀ l, findSub f k = .ok l →
      ∃ l', findSub f k' = .ok l' ∧ All2 (SubSim AlikeWsdl f) l l' := by
  induction h with
  | nil => intro f _ l hl; injection hl with hl; subst hl; exact ⟨[], rfl, .nil⟩
  | left hu _ ih =>
    intro f hf l hl
    rw [overlookedWsdl_skip v hu hf] at hl
    exact ih f hf l hl
  | right hu _ ih =>
    intro f hf l hl
    rw [overlookedWsdl_skip v hu hf]
    exact ih f hf l hl
  | @both c c' q q' a a' t t' k k' ks ks' hc hq hat hk _ _ ih =>
    intro f hf l hl
    refine find_both hq hl (ih f hf) fun hm => ⟨hat.1, ?_⟩
    rw [isCls_iff.1 (wsdl_types v c f hf _ hc (by rw [← matchesTag_loc]; exact hm))]
    exact .elem hat hk
  | @documentation c q q' a a' t k k' ks ks' hq hq' hn _ ih =>
    intro f hf l hl
    refine find_both (hq.trans hq'.symm) hl (ih f hf) fun hm => ⟨hn, ?_⟩
    have := wsdl_documentation v c f hf (by rw [← hq, ← matchesTag_loc]; exact hm)
    cases ht : f.type with
    | simple s => rfl
    | complex c => rw [ht] at this; cases this
    | any => trivial
  | @schema q q' a a' t t' k k' ks ks' hq hq' hs _ ih =>
    intro f hf l hl
    obtain ⟨_, _, _, _, _, _, _, _, h1, h2, hat, hk⟩ := hs
    cases h1
    cases h2
    refine find_both (hq.trans hq'.symm) hl (ih f hf) fun hm => ⟨hat.1, ?_⟩
    rw [isCls_iff.1 (wsdl_schema v f hf (by rw [← hq, ← matchesTag_loc]; exact hm))]
    exact .xsd (.elem (c := .schema) hat hk)

theorem alikeWsdl_isSim (v : Version) : IsSim (specTable v) AlikeWsdl where
  attrs := by
    rintro c x y (h | ⟨hat, _⟩) f hf
    · exact (alikeXsd_isSim v).attrs c x y h f hf
    · exact hat.2 _ (wsdl_attrs v _ f hf)
  subs := by
    rintro c x y (h | ⟨hat, hk⟩) hc f hf l hl
    · obtain ⟨l', h1, h2⟩ := (alikeXsd_isSim v).subs c x y h hc f hf l hl
      exact ⟨l', h1, h2.imp fun _ _ => subSim_xsd⟩
    · exact sameWsdlParts_find v hk f hf l hl
  groups := by
    rintro c x y (h | ⟨_, _⟩) f hf
    · exact subSim_xsd ((alikeXsd_isSim v).groups c x y h f hf)
    · rename_i c _ _ _ _ _ _ _ _ _ _
      rw [List.isEmpty_iff.1 (wsdl_shape v c).1] at hf
      cases hf
  choice := by
    rintro c x y (h | ⟨_, _⟩) hc
    · cases h
      rename_i c _ _ _ _ _ _ _ _ _ _
      rw [(overlooked_shape v c).2] at hc
      cases hc
    · rename_i c _ _ _ _ _ _ _ _ _ _
      rw [(wsdl_shape v c).2] at hc
      cases hc

theorem sameWsdlParts_symm {c : WsdlConstruct} {k k' : List Xml} (h : SameWsdlParts c k k') : SameWsdlParts c k' k := by
  induction h with
  | nil => exact .nil
  | left hu _ ih => exact .right hu ih
  | right hu _ ih => exact .left hu ih
  | both hc hq hat _ _ ih1 ih2 =>
    exact .both (hq ▸ hc) hq.symm ⟨hat.1.symm, fun n hn => (hat.2 n hn).symm⟩ ih1 ih2
  | documentation hq hq' hn _ ih => exact .documentation hq' hq hn.symm ih
  | schema hq hq' hs _ ih => exact .schema hq' hq (sameXsd_symm hs) ih

theorem sameWsdl_symm {x y : Xml} (h : SameWsdl x y) : SameWsdl y x := by
  obtain ⟨q, a, t, k, q', a', t', k', rfl, rfl, hat, hk⟩ := h
  exact ⟨_, _, _, _, _, _, _, _, rfl, rfl, ⟨hat.1.symm, fun n hn => (hat.2 n hn).symm⟩, sameWsdlParts_symm hk⟩

theorem sameWsdl_read (v : Version) (N n : Nat) (x y : Xml) (h : SameWsdl x y) (d : Val)
    (hd : parseCls (specTable v) N n wDefinitions x = .ok d) :
    ∃ d', parseCls (specTable v) N n wDefinitions y = .ok d' ∧ d.Same d' := by
  obtain ⟨q, a, t, k, q', a', t', k', rfl, rfl, hat, hk⟩ := h
  obtain ⟨d', h1, h2⟩ := parse_sim (alikeWsdl_isSim v) N n wDefinitions _ _ d (.elem (c := .definitions) hat hk) hd
  have : d.SameFields d' := h2
  exact ⟨d', h1, this.same⟩

/-- **C135.** WSDL documents that differ only by what is not looked at are either both read or both not, and give the same
code or no code, for a client as for a server. -/
theorem C135_code (digest : Str → Str) (ok : Str → Bool) (prefixes : List (Option Str)) (v : Version) (N n limit : Nat)
    (server : Bool) (x y : Xml) (h : SameWsdl x y) :
    (∀ d, parseCls (specTable v) N n wDefinitions x = .ok d →
      ∃ d', parseCls (specTable v) N n wDefinitions y = .ok d' ∧
        wsdlToPy digest ok prefixes limit server v d = wsdlToPy digest ok prefixes limit server v d') ∧
    ∀ d', parseCls (specTable v) N n wDefinitions y = .ok d' →
      ∃ d, parseCls (specTable v) N n wDefinitions x = .ok d ∧
        wsdlToPy digest ok prefixes limit server v d = wsdlToPy digest ok prefixes limit server v d' := by
  refine ⟨fun d hd => ?_, fun d' hd' => ?_⟩
  · obtain ⟨d', h1, h2⟩ := sameWsdl_read v N n x y h d hd
    exact ⟨d', h1, wsdlToPy_same h2⟩
  · obtain ⟨d, h1, h2⟩ := sameWsdl_read v N n y x (sameWsdl_symm h) d' hd'
    exact ⟨d, h1, (wsdlToPy_same h2).symm⟩

/-- **C135 (read, but not used).** Descriptions that agree, at all depths, apart from documentation, bodies, faults, faults
of headers, encoding styles and the like give the same code. -/
theorem C135_unread (digest : Str → Str) (ok : Str → Bool) (prefixes : List (Option Str)) (v : Version) (limit : Nat)
    (server : Bool) (d d' : Val) (h : d.forget = d'.forget) :
    wsdlToPy digest ok prefixes limit server v d = wsdlToPy digest ok prefixes limit server v d' := by
  rw [← wsdlToPy_forget digest ok prefixes limit server v d, ← wsdlToPy_forget digest ok prefixes limit server v d', h]

namespace ExOverlookedWsdl

def wd (n : Str) (a : List (Str × Str)) (k : List Xml) : Xml :=
  .elem ⟨some nsWsdl, n⟩ (a.map fun p => (⟨none, p.1⟩, p.2)) none k

def soap (n : Str) (a : List (Str × Str)) : Xml :=
  .elem ⟨some py"http://schemas.xmlsoap.org/wsdl/soap/", n⟩ (a.map fun p => (⟨none, p.1⟩, p.2)) none []

def xs (n : Str) (a : List (Str × Str)) (k : List Xml) : Xml :=
  .elem ⟨some nsXsd, n⟩ (a.map fun p => (⟨none, p.1⟩, p.2)) none k

def schemaWith (content : List Xml) : Xml :=
  wd py"types" [] [xs py"schema" [(py"targetNamespace", py"urn:b")]
    [xs py"element" [(py"name", py"ask"), (py"type", py"xs:string")] [],
     xs py"complexType" [(py"name", py"price")] content]]

def rest : List Xml :=
  [wd py"message" [(py"name", py"askIn")] [wd py"part" [(py"name", py"body"), (py"element", py"b:ask")] []],
   wd py"portType" [(py"name", py"pt")]
    [wd py"operation" [(py"name", py"ask")] [wd py"input" [(py"message", py"b:askIn")] [], wd py"output" [(py"message", py"b:askIn")] []]],
   wd py"binding" [(py"name", py"bn"), (py"type", py"b:pt")]
    [soap py"binding" [(py"transport", py"http://schemas.xmlsoap.org/soap/http")],
     wd py"operation" [(py"name", py"ask")] [soap py"operation" [(py"soapAction", py"x")],
      wd py"input" [] [soap py"body" [(py"use", py"literal")]], wd py"output" [] [soap py"body" [(py"use", py"literal")]]]],
   wd py"service" [(py"name", py"sv")]
    [wd py"port" [(py"name", py"pr"), (py"binding", py"b:bn")] [soap py"address" [(py"location", py"http://h/s")]]]]

/-- A description with a policy, where a price has simple content. -/
def shop : Xml :=
  wd py"definitions" [(py"targetNamespace", py"urn:b")]
    (wd py"Policy" [] [] :: .comment :: schemaWith [xs py"simpleContent" [] [xs py"extension" [(py"base", py"xs:decimal")] []]] :: rest)

/-- The same without a policy, where a price is nothing. -/
def bareShop : Xml := wd py"definitions" [(py"targetNamespace", py"urn:b")] (schemaWith [] :: rest)

theorem rest_same : SameWsdlParts .definitions rest rest := by
  have at' : ∀ c a, SameWsdlAttributes c a a := fun _ _ => ⟨rfl, fun _ _ => rfl⟩
  exact .both (c' := .message) (by decide) rfl (at' _ _) (.both (c' := .part) (by decide) rfl (at' _ _) .nil .nil) <|
    .both (c' := .portType) (by decide) rfl (at' _ _)
      (.both (c' := .operation) (by decide) rfl (at' _ _)
        (.both (c' := .input) (by decide) rfl (at' _ _) .nil (.both (c' := .output) (by decide) rfl (at' _ _) .nil .nil)) .nil) <|
    .both (c' := .binding) (by decide) rfl (at' _ _)
      (.both (c' := .soapBinding) (by decide) rfl (at' _ _) .nil
        (.both (c' := .operation) (by decide) rfl (at' _ _)
          (.both (c' := .soapOperation) (by decide) rfl (at' _ _) .nil
            (.both (c' := .input) (by decide) rfl (at' _ _) (.both (c' := .soapBody) (by decide) rfl (at' _ _) .nil .nil)
              (.both (c' := .output) (by decide) rfl (at' _ _) (.both (c' := .soapBody) (by decide) rfl (at' _ _) .nil .nil) .nil))) .nil)) <|
    .both (c' := .service) (by decide) rfl (at' _ _)
      (.both (c' := .port) (by decide) rfl (at' _ _) (.both (c' := .soapAddress) (by decide) rfl (at' _ _) .nil .nil) .nil) .nil

theorem shop_same : SameWsdl shop bareShop := by
  refine ⟨_, _, _, _, _, _, _, _, rfl, rfl, ⟨rfl, fun _ _ => rfl⟩,
    .left (.inr ⟨_, _, _, _, rfl, by decide, by decide, by decide, by decide⟩) (.left (.inl rfl)
      (.both (c' := .types) (by decide) rfl ⟨rfl, fun _ _ => rfl⟩ (.schema rfl rfl ?_ .nil) rest_same))⟩
  exact ⟨_, _, _, _, _, _, _, _, rfl, rfl, ⟨rfl, fun _ _ => rfl⟩,
    .both (c' := .element) (by decide) rfl ⟨rfl, fun _ _ => rfl⟩ .nil
      (.both (c' := .complexType) (by decide) rfl ⟨rfl, fun _ _ => rfl⟩
        (.left (.inr ⟨_, _, _, _, rfl, by decide, by decide⟩) .nil) .nil)⟩

/-- Both are read, and there is code for them, with one port of one method. -/
example : ∃ d m, parseCls (specTable .soap11) 12 12 wDefinitions shop = .ok d ∧
    wsdlToPy (fun _ => py"01234") (fun _ => true) [some py"xs"] 5 false .soap11 d = .ok m ∧
    m.ports.map (fun p => p.methods.map (·.name)) = [[py"ask"]] := ⟨_, _, rfl, rfl, rfl⟩

example (d : Val) (hd : parseCls (specTable .soap11) 12 12 wDefinitions shop = .ok d) :
    ∃ d', parseCls (specTable .soap11) 12 12 wDefinitions bareShop = .ok d' ∧
      wsdlToPy (fun _ => py"01234") (fun _ => true) [some py"xs"] 5 false .soap11 d =
        wsdlToPy (fun _ => py"01234") (fun _ => true) [some py"xs"] 5 false .soap11 d' :=
  (C135_code _ _ _ _ _ _ _ _ _ _ shop_same).1 d hd

/-- The operation with a fault, documentation, and a body of an encoded part in another namespace -/
def faultyShop : Xml :=
  wd py"definitions" [(py"targetNamespace", py"urn:b")] (schemaWith [] ::
    [wd py"message" [(py"name", py"askIn")] [wd py"part" [(py"name", py"body"), (py"element", py"b:ask")] []],
     wd py"portType" [(py"name", py"pt")]
      [wd py"operation" [(py"name", py"ask")] [wd py"documentation" [] [], wd py"input" [(py"message", py"b:askIn")] [],
        wd py"output" [(py"message", py"b:askIn")] [], wd py"fault" [(py"name", py"f"), (py"message", py"b:askIn")] []]],
     wd py"binding" [(py"name", py"bn"), (py"type", py"b:pt")]
      [soap py"binding" [(py"transport", py"http://schemas.xmlsoap.org/soap/http")],
       wd py"operation" [(py"name", py"ask")] [soap py"operation" [(py"soapAction", py"x")],
        wd py"input" [] [soap py"body" [(py"use", py"encoded"), (py"parts", py"body"), (py"namespace", py"urn:c")]],
        wd py"output" [] [soap py"body" [(py"use", py"literal")]]]],
     wd py"service" [(py"name", py"sv")]
      [wd py"port" [(py"name", py"pr"), (py"binding", py"b:bn")] [soap py"address" [(py"location", py"http://h/s")]]]])

example : ∃ d d', parseCls (specTable .soap11) 12 12 wDefinitions faultyShop = .ok d ∧
    parseCls (specTable .soap11) 12 12 wDefinitions bareShop = .ok d' ∧ d.forget = d'.forget ∧
    wsdlToPy (fun _ => py"01234") (fun _ => true) [some py"xs"] 5 true .soap11 d =
      wsdlToPy (fun _ => py"01234") (fun _ => true) [some py"xs"] 5 true .soap11 d' :=
  ⟨_, _, rfl, rfl, rfl, C135_unread _ _ _ _ _ _ _ _ rfl⟩

end ExOverlookedWsdl

end Soapfish
