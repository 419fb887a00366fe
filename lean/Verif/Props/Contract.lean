import Verif.Spec.Contract
import Verif.Props.Headers
import Verif.Props.Whole
import Verif.Props.Depth
/-
A server keeps to its XSD document, whoever calls it (C114).
-/
namespace Soapfish
open Spec

/-- Results do not change with more depth. -/
theorem read_deeper {T : Table} {N N' n m : Nat} {c : ClsId} {x : Xml} {o : Val} (hN : N ≤ N') (hn : n ≤ m)
    (h : parseCls T N n c x = .ok o) : parseCls T N' m c x = .ok o := by
  rcases C115_read T N N' hN n m hn c x with e | e
  · rw [e] at h; cases h
  · rw [← e]; exact h

theorem write_deeper {T : Table} {n m : Nat} {v : Val} {tag : Str} {ns : Option Str} {q : Bool} {z : Xml} (hn : n ≤ m)
    (h : toXml T n v tag ns q = .ok z) : toXml T m v tag ns q = .ok z := by
  rcases C115_write T n m hn v tag ns q with e | e
  · rw [e] at h; cases h
  · rw [← e]; exact h

theorem top_inj {l : List GTop} (h : (l.map (·.name)).Nodup) {t t' : GTop} (ht : t ∈ l) (ht' : t' ∈ l)
    (hn : t.name = t'.name) : t = t' := by
  induction l with
  | nil => cases ht
  | cons a l ih =>
    simp only [List.map_cons, List.nodup_cons] at h
    rcases List.mem_cons.1 ht with rfl | hm
    · rcases List.mem_cons.1 ht' with rfl | hm'
      · rfl
      · exact absurd (List.mem_map.2 ⟨t', hm', hn.symm⟩) h.1
    · rcases List.mem_cons.1 ht' with rfl | hm'
      · exact absurd (List.mem_map.2 ⟨t, hm, hn⟩) h.1
      · exact ih h.2 hm hm'

theorem complex_inj {l : List GComplex} (h : (l.map (·.name)).Nodup) {t t' : GComplex} (ht : t ∈ l) (ht' : t' ∈ l)
    (hn : t.name = t'.name) : t = t' := by
  induction l with
  | nil => cases ht
  | cons a l ih =>
    simp only [List.map_cons, List.nodup_cons] at h
    rcases List.mem_cons.1 ht with rfl | hm
    · rcases List.mem_cons.1 ht' with rfl | hm'
      · rfl
      · exact absurd (List.mem_map.2 ⟨t', hm', hn.symm⟩) h.1
    · rcases List.mem_cons.1 ht' with rfl | hm'
      · exact absurd (List.mem_map.2 ⟨t, hm, hn⟩) h.1
      · exact ih h.2 hm hm'

/-- What the dispatcher answers to a plain message whose input it reads as `p`. -/
theorem plain_served {W : World} {d : DispId} {m : MethodId} {tin tout : Str} {cin cout : ClsId}
    (R : Serves W d m tin tout cin cout) {f : Val → Val} (hf : ComputesBody (W.method m) f) {s : State} {env : Env}
    {content : Bytes} {doc x answer : Xml} {p : Val} (henv : env py"REQUEST_METHOD" = some py"POST")
    (hm : Handles W (W.disp d).service env tin m) (hr : W.read content = some doc) (hp : PlainMessage doc none x)
    (hn : x.Named tin) (hx : (W.disp d).validator x = .ok ()) (hi : ReadsInput W (W.disp d).service m x p)
    (hdoc : responseXml (W.disp d).service.version (W.table (W.disp d).service) W.depth tout (f p) Val.none = .ok answer) :
    served W d s env content = .ok (W.write answer) := by
  have hq : (s.receive env content).reqs[s.reqs.length]? = some { environ := env, content := content } := by
    simp [State.receive]
  have hq2 := begin_req (d := d) hq
  have hcall := callMethod_plain hq2 rfl R.depth hr hp (fun h hh => by cases hh) hx hn hm .missing hi hf
  have hlt : s.reqs.length < ((s.receive env content).begin d s.reqs.length { environ := env, content := content }).reqs.length :=
    (List.getElem?_eq_some_iff.1 hq2).1
  have hpost : IsPost { environ := env, content := content } := henv
  have hinner : ∃ tr, inner W d s.reqs.length { environ := env, content := content } (s.receive env content) =
      (.ok (.response (mkResponse (.val (f p)))),
        ⟨((s.receive env content).begin d s.reqs.length { environ := env, content := content }).reqs.set s.reqs.length
        { environ := env, content := content, dispatcher := some d, method := some m, soapHeader := Val.none, soapBody := p }, tr⟩) := by
    refine ⟨((s.receive env content).begin d s.reqs.length { environ := env, content := content }).trace ++
      [.method m s.reqs.length { environ := env, content := content, dispatcher := some d, method := some m, soapHeader := Val.none, soapBody := p } p], ?_⟩
    unfold inner
    rw [R.middlewares]
    simp only [chain]
    rw [hcall]
    simp only [Prog.run', Prog.run]
    rfl
  obtain ⟨tr, hinner⟩ := hinner
  obtain ⟨a, ha1, ha2⟩ := answer_sent (doc := answer) R hq hpost (by rw [hinner]) rfl (by
      intro q' hq'
      rw [hinner] at hq'
      simp only [List.getElem?_set_self hlt] at hq'
      injection hq' with hq'; rw [← hq']) hdoc
  unfold State.receive at ha1
  unfold served
  rw [ha1]
  simp only [ha2]

section
variable {compile : Str → Pattern} {iso : Iso} {cls top : Str → ClsId} {limit : Nat}

/-- A valid element, in terms of the schema object. -/
theorem kept_root {g : GSchema} (hs : SchemaSurvives g limit) {means : Str → Str → Prop} {n c : Str} (ht : g.Top n c) {x : Xml}
    (hx : KeptRoot [some py"xsd"] (schemaOf g) means n x) : ∃ t ∈ g.elements, t.name = n ∧ t.type = .ofClass (.complex c) ∧
      ∃ k ∈ g.complexTypes, k.name = c ∧ ∃ as tx ks, x = .elem ⟨some g.targetNamespace, n⟩ as tx ks ∧ BlankText tx ∧
        ValidContent [some py"xsd"] (schemaOf g) means KeptAttr Kept { name := some (refName c), content := contentOf k } as ks := by
  obtain ⟨t, ht, rfl, hty⟩ := ht
  obtain ⟨e, he, q, p, l, e1, e2, e3, _, ct, hct, e4, as, tx, ks, rfl, hb, hv⟩ := hx
  obtain ⟨t', ht', rfl⟩ := List.mem_map.1 he
  have : t' = t := top_inj hs.topNames ht' ht (Option.some.inj e1)
  subst this
  have htop := (hs.tops t' ht).2.2
  rw [hty] at htop
  obtain ⟨k, hk, rfl⟩ := htop
  obtain ⟨k', hk', rfl⟩ := List.mem_map.1 hct
  have hq : py"sns:" ++ refName k.name = q := by
    have : (topOf t').type = some (py"sns:" ++ refName k.name) := by unfold topOf; rw [hty]; rfl
    exact Option.some.inj (this.symm.trans e2)
  subst hq
  have hsp := (sns_qualified (complex_name hs hk)).split.symm.trans e3.split
  injection hsp with hsp
  injection hsp with _ hl
  subst hl
  have hname : k'.name = k.name := refName_inj (complex_name hs hk') (complex_name hs hk) (Option.some.inj e4)
  have hnd : (g.complexTypes.map (·.name)).Nodup := by
    have := hs.distinct
    unfold moduleNames at this
    exact (List.nodup_append.1 (List.nodup_append.1 this).1).2.1
  have := complex_inj hnd hk' hk hname
  subst this
  exact ⟨t', ht, rfl, hty, k', hk, rfl, as, tx, ks, rfl, hb, hv⟩

/-- **C114.** Take a program whose schema object lists its classes, and the XSD document generated for it.  Let `x` be an
element that is valid for this document, with texts that are kept, as the top-level element `tin`.  There is an object that
says the same as `x`, and whoever sends `x` in a plain message to a server of this program gets its method for `tin` called with this
object.  What a method answers, when all required fields are set, is valid for the document, too.  `k0` bounds the depth of
the documents. -/
theorem C114_contract (v : Version) (D : Nat) (g : GSchema) (xs xs' : Xml) (h : generateSchema v (D + 12) g = .ok xs)
    (hb : Back xs xs') (hs : SchemaSurvives g limit) (hk : TypesKept g) (he : Enforced g) (hiso : IsoCanonical iso)
    -- the classes of the program
    (ver : Version) (U : Table) (hT : Shown compile iso cls top (soapTable ver U) g) (hsane : (soapTable ver U).Sane)
    (hU : ∀ c ∈ g.complexTypes, Unambiguous (soapTable ver U) (cls c.name))
    (hO : ∀ t ∈ g.elements, ∀ c, t.type = .inst (some c) → Unambiguous (soapTable ver U) (top t.name))
    {means : Str → Str → Prop} (hmeans : ∀ p t, PatternAccepts (compile p) t ↔ means p t) :
    ∃ sd, parseCls (specTable v) (D + 12) (D + 12) xSchema xs' = .ok sd ∧
      ∀ tin tout nin nout : Str, g.Top tin nin → g.Top tout nout →
      ∀ x, KeptRoot [some py"xsd"] (readSchema sd) means tin x →
      ∃ p z k0, SameContent z x ∧
        (∀ k, k0 ≤ k → toXml (soapTable ver U) k p tin (some g.targetNamespace) g.qualified = .ok z) ∧
        -- the server
        ∀ (W : World) (d : DispId) (m : MethodId) (f : Val → Val), W.user = U → (W.disp d).service.version = ver →
          k0 ≤ W.depth → Serves W d m tin tout (cls nin) (cls nout) →
          (∀ y, ValidRoot [some py"xsd"] (readSchema sd) means y → (W.disp d).validator y = .ok ()) →
          ComputesBody (W.method m) f →
        -- the request
        ∀ (s : State) (env : Env) (content : Bytes) (doc : Xml), env py"REQUEST_METHOD" = some py"POST" →
          Handles W (W.disp d).service env tin m → W.read content = some doc → PlainMessage doc none x →
          (∃ q, (happened (dispatch W d s.reqs.length) (s.receive env content)).head? = some (.method m s.reqs.length q p)) ∧
          ∀ answer, Complete (soapTable ver U) (.complex (cls nout)) (f p) →
            responseXml ver (soapTable ver U) W.depth tout (f p) Val.none = .ok answer →
            served W d s env content = .ok (W.write answer) ∧
            ∀ answer' y, Back answer answer' → Unmixed answer' → PlainMessage answer' none y →
              ValidRoot [some py"xsd"] (readSchema sd) means y := by
  obtain ⟨sd, h1, hsd⟩ := published_document h hb
  refine ⟨sd, h1, ?_⟩
  intro tin tout nin nout hin hout x hx
  have hx0 := hx
  rw [hsd] at hx
  obtain ⟨t, ht, rfl, hty, k, hkm, rfl, as, tx, ks, rfl, hblank, hvalid⟩ := kept_root hs hin hx
  obtain ⟨sd', h1', hread⟩ := C107_read v D g xs xs' limit h hb hs hk hT hsane he hU hO hiso fun p t => (hmeans p t).2
  cases h1.symm.trans h1'
  obtain ⟨ct, hct, hctn, hread⟩ := hread k hkm
  have hct' : ct = { name := some (refName k.name), content := contentOf k } := by
    rw [hsd] at hct
    obtain ⟨k', hk', rfl⟩ := List.mem_map.1 hct
    have hname : k'.name = k.name := refName_inj (complex_name hs hk') (complex_name hs hkm) (Option.some.inj hctn)
    have hnd : (g.complexTypes.map (·.name)).Nodup := by
      have := hs.distinct
      unfold moduleNames at this
      exact (List.nodup_append.1 (List.nodup_append.1 this).1).2.1
    rw [complex_inj hnd hk' hkm hname]
  subst hct'
  obtain ⟨k0, hread⟩ := hread t.name as tx ks hblank (by rw [hsd]; exact hvalid)
  obtain ⟨p, z, r1, r2, r3⟩ := hread k0 (Nat.le_refl _)
  refine ⟨p, z, max k0 (limit + 1), r3, fun n hn => write_deeper (by omega) r2, ?_⟩
  intro W d m f hWU hver hdepth R hval hf s env content doc henv hm hr hp
  subst hWU hver
  have hxn : (Xml.elem ⟨some g.targetNamespace, t.name⟩ as tx ks).Named t.name := ⟨_, _, _, _, rfl, rfl⟩
  have hxv := hval _ (hsd ▸ root_valid (means := means) hs ht hkm hty (hsd ▸ hct) hctn hblank
    (content_imp (fun _ _ h => keptAttr_lexical h) (fun _ _ h => kept_lexical h) hvalid))
  have hinput : ReadsInput W (W.disp d).service m (.elem ⟨some g.targetNamespace, t.name⟩ as tx ks) p := by
    obtain ⟨e, he1, he2⟩ := R.inputType
    refine .element R.input he1 ?_
    rw [he2]
    exact read_deeper (by omega) (by omega) r1
  have hq : (s.receive env content).reqs[s.reqs.length]? = some { environ := env, content := content } := by
    simp [State.receive]
  refine ⟨⟨_, C38_C39_called W d _ _ _ doc _ none t.name m Val.none p _ hq henv R.middlewares R.requestHook R.depth hr hp
    (fun h hh => by cases hh) hxv hxn hm .missing hinput hf⟩, fun answer hcomplete hans => ?_⟩
  refine ⟨plain_served R hf henv hm hr hp hxn hxv hinput hans, fun answer' y hb' hun hpl => ?_⟩
  obtain ⟨te, hto, hton, htoty⟩ := hout
  obtain ⟨sd2, e1, e2⟩ := C108_request v D g xs xs' h hb hs hk he W (W.disp d).service hT hsane.names R.depth fun p t => (hmeans p t).1
  cases e1.symm.trans h1
  exact e2 te hto nout htoty _ _ _ _ hcomplete (hton ▸ hans) hb' hun hpl

end

/-! ### Examples -/

namespace ExContract
open Ex

/-- A request with white space and a comment, which no client of soapfish sends. -/
def foreign : Xml := .elem ⟨some py"urn:x", py"sayHello"⟩ [] (some py"\n") [.comment, .elem ⟨none, py"name"⟩ [] (some py"Bob") []]

def message : Xml := .elem ⟨some Version.soap11.envelopeNs, py"Envelope"⟩ [] (some py"\n")
  [.elem ⟨some Version.soap11.envelopeNs, py"Body"⟩ [] (some py"\n") [foreign]]

/-- The method answers 'hi'. -/
def hi : Val := .inst 9 [(py"greeting", .atom (.str py"hi"))] none
def polite : Method := { greeter with function := some fun _ _ => .ret (.obj (.val hi)) }

/-- A server that receives the message. -/
def world (k : Nat) : World := { ExC.world polite with depth := k + 4, read := fun _ => some message }

def answer : Xml := .elem ⟨some Version.soap11.envelopeNs, py"Envelope"⟩ [] none
  [.elem ⟨some Version.soap11.envelopeNs, py"Body"⟩ [] none
    [.elem ⟨some py"urn:x", py"sayHelloResponse"⟩ [] none [.elem ⟨none, py"greeting"⟩ [] (some py"hi") []]]]

theorem foreign_kept (means : Str → Str → Prop) : KeptRoot [some py"xsd"] (schemaOf helloSchema) means py"sayHello" foreign := by
  refine ⟨_, List.mem_cons_self .., py"sns:sayHello", some py"sns", py"sayHello", rfl, rfl,
    .prefixed (p := py"sns") (l := py"sayHello") (by decide) (by decide), by decide, _, List.mem_cons_self .., rfl, [], _, _, rfl,
    fun s hs => by cases Option.some.inj hs; decide, ?_⟩
  refine .sequence (.own rfl) (fun c hc => by cases List.mem_singleton.1 hc; exact ⟨rfl, rfl⟩)
    ⟨fun a ha => (by cases ha), by decide, fun a ha => (by cases ha)⟩ ?_
  refine .cons (block := [_]) (rest := []) (fun x hx => ?_) ⟨by decide, by show (1 : Nat) ≤ 1; decide⟩ .nil
  cases List.mem_singleton.1 hx
  exact .text (n := py"name") (q := py"xsd:string") (t := some py"Bob") rfl rfl
    (.builtin (p := some py"xsd") (l := py"string") (b := .string) (.prefixed (p := py"xsd") (l := py"string") (by decide) (by decide))
      (by decide) rfl (.string (by decide) (by unfold XmlOk; decide)))

/-- The server calls its method with an object that says the same as the message, and its answer is valid. -/
example (v : Version) (xs' : Xml) (hb : Back (document helloSchema) xs') :
    ∃ sd, parseCls (specTable v) 12 12 xSchema xs' = .ok sd ∧ ∃ p z k, SameContent z foreign ∧
      toXml (soapTable .soap11 ExC.user) (k + 4) p py"sayHello" (some py"urn:x") false = .ok z ∧
      (∃ q, (happened (dispatch (world k) 0 0) (State.receive {} (ExC.environ []) [])).head? = some (.method 0 0 q p)) ∧
      served (world k) 0 {} (ExC.environ []) [] = .ok ((world k).write answer) ∧
      ∀ answer' y, Back answer answer' → Unmixed answer' → PlainMessage answer' none y →
        ValidRoot [some py"xsd"] (readSchema sd) (fun _ t => PatternAccepts intPattern t) y := by
  have ho := hello_handWritten (fun _ => intPattern) isoRef
  obtain ⟨sd, h1, h2⟩ := C114_contract v 0 helloSchema (document helloSchema) xs' (by cases v <;> rfl) hb helloSchema_survives
    helloSchema_kept ExVal.hello_enforced isoRef_canonical .soap11 ExC.user ho.shown ExC.sane (fun c hc => (ho.complex c hc).2)
    (fun t ht c hc => (ho.own t ht c hc).2) (means := fun _ t => PatternAccepts intPattern t) fun _ _ => Iff.rfl
  obtain ⟨sd', h1', hsd⟩ := published_document (D := 0) (v := v) (s := helloSchema) (by cases v <;> rfl) hb
  cases h1.symm.trans h1'
  refine ⟨sd, h1, ?_⟩
  obtain ⟨p, z, k0, g1, g2, g3⟩ := h2 py"sayHello" py"sayHelloResponse" py"SayHello" py"SayHelloResponse"
    ⟨_, List.mem_cons_self .., rfl, rfl⟩ ⟨_, List.mem_cons_of_mem _ (List.mem_cons_self ..), rfl, rfl⟩ foreign
    (by rw [hsd]; exact foreign_kept _)
  obtain ⟨a1, a2⟩ := g3 (world k0) 0 0 (fun _ => hi) rfl rfl (Nat.le_add_right ..)
    ⟨Nat.le_add_left .., ExC.sane, rfl, rfl, rfl, rfl, ⟨_, rfl, rfl⟩, by decide, rfl, ⟨_, rfl, rfl⟩, by decide⟩ (fun _ _ => rfl) rfl
    {} (ExC.environ []) [] message rfl
    (.input (fun a h => by
      have : Version.determineAction .soap11 (ExC.environ []) = none := by
        decide +kernel
      exact absurd (this.symm.trans h.1) (by simp)) ⟨[], [], rfl, rfl, by simp⟩) rfl
    ⟨_, _, _, _, _, _, py"sayHello", rfl, rfl, by simp [attrGet], ⟨_, _, _, _, rfl, rfl⟩, by decide, by decide, by simp⟩
  have hcomplete : Complete (soapTable .soap11 ExC.user) (.complex (helloCls py"SayHelloResponse")) hi := by
    refine .inst rfl fun f w hf hw => ?_
    cases List.mem_singleton.1 hf
    cases Option.some.inj hw
    exact .single (by decide) (.val (.simple (a := .str py"hi") rfl trivial fun h => h.elim))
  obtain ⟨b1, b2⟩ := a2 answer hcomplete rfl
  exact ⟨p, z, k0, g1, g2 _ (Nat.le_add_right ..), a1, b1, b2⟩

end ExContract
end Soapfish
