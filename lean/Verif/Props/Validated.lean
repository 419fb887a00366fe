import Verif.ValidatedLemmas
import Verif.Props.Published
import Verif.Props.Loaded
/-
Requests that are written with the classes of a schema pass the validation of a dispatcher (C108).
-/
set_option maxRecDepth 8000
namespace Soapfish
open Spec

section
variable {compile : Str → Pattern} {iso : Iso} {cls top : Str → ClsId} {limit : Nat}

/-- **C108 (requests).** Take a program whose schema object lists its classes, and the XSD document generated for it.  When
an object whose required fields are set is sent as a top-level element with its complex type, and the message survives
transport, its body is valid for the document. -/
theorem C108_request (v : Version) (D : Nat) (g : GSchema) (xs xs' : Xml) (h : generateSchema v (D + 12) g = .ok xs)
    (hb : Back xs xs') (hs : SchemaSurvives g limit) (hk : TypesKept g) (he : Enforced g) (W : World) (S : Service)
    (hT : Shown compile iso cls top (W.table S) g) (hwf : (W.table S).Wf) (hD : 4 ≤ W.depth) {means : Str → Str → Prop}
    (hmeans : ∀ p t, PatternAccepts (compile p) t → means p t) :
    ∃ d, parseCls (specTable v) (D + 12) (D + 12) xSchema xs' = .ok d ∧
      ∀ t ∈ g.elements, ∀ n, t.type = .ofClass (.complex n) → ∀ (o : Val) (doc doc' y : Xml),
        Complete (W.table S) (.complex (cls n)) o → responseXml S.version (W.table S) W.depth t.name o Val.none = .ok doc →
        Back doc doc' → Unmixed doc' → PlainMessage doc' none y → ValidRoot [some py"xsd"] (readSchema d) means y := by
  obtain ⟨d, h1, h2⟩ := C107_written v D g xs xs' limit h hb hs hk hT hwf he hmeans
  obtain ⟨d', h1', hd⟩ := published_document h hb
  cases h1.symm.trans h1'
  refine ⟨d, h1, fun t ht n hty o doc doc' y ho hdoc hback hun hplain => ?_⟩
  have htop := (hs.tops t ht).2.2
  rw [hty] at htop
  obtain ⟨c, hc, rfl⟩ := htop
  obtain ⟨ct, hct, hn, h3⟩ := h2 c hc
  have hsh := hT.complex c hc
  cases ho with
  | @inst _ fs x0 hfn hf =>
    obtain ⟨k, hkd⟩ := world_depth hD
    have hdoc0 := hdoc
    rw [World.table, hkd] at hdoc0
    obtain ⟨s, out, hdr, hsch, hout, hh, rfl⟩ := responseXml_shape (.inl rfl) hdoc0
    rcases hh with ⟨_, rfl⟩ | ⟨_, _, _, _, hh, _⟩
    · have hsch' : s = ⟨some g.targetNamespace, g.qualified⟩ := Option.some.inj (hsch.symm.trans hsh.schema)
      subst hsch'
      have hrender : toXml (W.table S) (k + 2) (.inst (cls c.name) fs x0) t.name (some g.targetNamespace) g.qualified =
          .ok (mkElem (QName.mk' (some g.targetNamespace) t.name) out none) := by
        have hin : innerNs (W.table S) (cls c.name) (some g.targetNamespace) = some g.targetNamespace := by
          unfold innerNs
          rw [hsh.schema]
        have hcls : renderCls (W.table S) (k + 2) (cls c.name) (.inst (cls c.name) fs x0) (some g.targetNamespace) g.qualified =
            .ok out := by
          rw [renderCls]
          simp only [hsh.plain.2, Bool.false_eq_true, false_and, if_false, hin]
          exact hout
        simp only [toXml, hcls, bind_ok]
      obtain ⟨as, ks, hy0, hvalid⟩ := h3 (k + 2) _ t.name _ (.inst hfn hf) hrender
      rw [hy0] at hback
      cases hback with
      | elem _ hk1 =>
        cases hk1 with
        | cons hbody hk2 =>
          cases hk2
          cases hbody with
          | elem _ hk3 =>
            cases hk3 with
            | @cons _ y' _ _ hy hk4 =>
              cases hk4
              obtain ⟨_, _, _, _, _, _, _, hdq, _⟩ := hplain
              injection hdq with _ _ _ hdq
              injection hdq with hdq
              injection hdq with _ _ _ hdq
              injection hdq with hdq
              subst hdq
              cases hun with
              | elem _ hun =>
                have := hun _ (List.mem_singleton_self _)
                cases this with
                | elem _ hun =>
                  have hyu := hun _ (List.mem_singleton_self _)
                  cases hy with
                  | @elem _ _ _ t' _ ks' htb hks =>
                    cases hyu with
                    | elem hu1 hu2 =>
                      rw [hd] at hct hvalid ⊢
                      refine ⟨topOf t, List.mem_map.2 ⟨t, ht, rfl⟩, t.name, py"sns:" ++ refName c.name, some py"sns", refName c.name, rfl, by
                        unfold topOf; rw [hty]; rfl, sns_qualified (complex_name hs hc), by decide, ct, hct, hn, as, t', ks', rfl, ?_, content_back hvalid _ hks hu2⟩
                      rcases hu1 with rfl | hu1
                      · cases hks
                        exact (textBack_leaf htb).2 fun s hs => by cases hs
                      · exact hu1
    · cases hh

end

section
variable {compile : Str → Pattern} {iso : Iso} {cls top : Str → ClsId} {limit : Nat} {o₀ : ServiceObj} {g : GSchema}
  {a : WebAddress} {W W' : World} {S : Service} {d : DispId} {env : PyEnv} {T : Table} {code : PyWsdlModule}

/-- **C108.** C105 without the assumption that the request is valid: it is enough that the validator of the server accepts
what is valid for the XSD document of the server's schema object, that the client sets the required fields of its argument,
and that transport puts no text between elements but white space. -/
theorem C108_call (D : Nat) (x x' : Xml) (digest : Str → Str) (ok : Str → Bool) (n : Nat)
    (hx : generateWsdl (D + 12) o₀.wsdl = .ok x) (hb : Back x x') (hs : ServiceSurvives false limit o₀.wsdl g a)
    (hdig : (digest g.targetNamespace).length = 5) (hk : TypesKept g)
    (description : Val) (hd : parseCls (specTable (versionFromXml x')) (D + 12) (D + 12) wDefinitions x' = .ok description)
    (hm : wsdlToPy digest ok [some py"xsd"] (n + 1) false (versionFromXml x') description = .ok code)
    -- the two programs
    (hc : Client compile iso limit code env T W S) (ho : HandWritten compile iso cls top W' (W'.disp d).service o₀ g)
    (hdepth : W.depth = W'.depth) (hread : W.read = W'.read) (hwrite : W.write = W'.write)
    -- the validator
    (he : Enforced g) (v : Version) (xs xs' : Xml) (hxs : generateSchema v (D + 12) g = .ok xs) (hbs : Back xs xs') (sd : Val)
    (hsd : parseCls (specTable v) (D + 12) (D + 12) xSchema xs' = .ok sd) {means : Str → Str → Prop}
    (hmeans : ∀ p t, PatternAccepts (compile p) t → means p t)
    (hvalidator : ∀ y, ValidRoot [some py"xsd"] (readSchema sd) means y → (W'.disp d).validator y = .ok ())
    -- the method
    (m : MethodId) (op tin tout : Str) (nin : Str) (cout' : ClsId) (hserves : Serves W' d m tin tout (cls nin) cout')
    (hin : ∃ t ∈ g.elements, t.name = tin ∧ t.type = .ofClass (.complex nin))
    (hop : First (fun m => (W'.method m).operationName = op) (W'.disp d).service.methods m)
    (f : Val → Val) (hf : (W'.method m).function = some fun _ p => .ret (.obj (.val (f p))))
    (s : State) (environ : Dict Str → Env) (henv : ∀ hs, environ hs py"REQUEST_METHOD" = some py"POST")
    (hh : Handles W' (W'.disp d).service
      (environ ((W'.disp d).service.version.requestHeaders (W'.method m).soapAction)) tin m) :
    ∃ m₀ cin cout, ClientMethod W S m₀ op tin tout cout ∧ ClientServer g cls top env cin (cls nin) ∧
      ClientServer g cls top env cout cout' ∧ (∃ e, S.findElement W tin = .ok (some e) ∧ e.type = .complex cin) ∧
      ∀ (v : Val) (doc : Xml), Survives (W.table S) W.depth (.complex cin) v → Complete (W.table S) (.complex cin) v →
        callDoc W S (W.method m₀) v Val.none = .ok doc → TravelsWell W doc →
        (∀ p, ValPair (ClientServer g cls top env) (W.table S) (W'.table (W'.disp d).service) v p → ∃ doc',
          Survives (W'.table (W'.disp d).service) W'.depth (.complex cout') (f p) ∧
          responseXml (W'.disp d).service.version (W'.table (W'.disp d).service) W'.depth tout (f p) Val.none = .ok doc' ∧
          Travels W' doc') →
        ∃ p w, ValPair (ClientServer g cls top env) (W.table S) (W'.table (W'.disp d).service) v p ∧
          ValPair (ClientServer g cls top env) (W.table S) (W'.table (W'.disp d).service) w (f p) ∧
          stubCall W S (fun hs content => served W' d s (environ hs) content) op v Val.none = .ok (mkResponse (.val w)) := by
  obtain ⟨m₀, cin, cout, h1, h2, h3, h4, h5⟩ := C105_call D x x' digest ok n hx hb hs hdig hk description hd hm hc ho hdepth hread
    hwrite m op tin tout (cls nin) cout' hserves hop f hf s environ henv hh
  refine ⟨m₀, cin, cout, h1, h2, h3, h4, fun v0 doc hv hcomplete hdoc htr hres => ?_⟩
  obtain ⟨doc', hr, hback, hun⟩ := htr
  refine h5 v0 doc hv hdoc ⟨doc', hr, hback⟩ (fun doc2 y hr2 hplain => hvalidator y ?_) hres
  rw [← hread, hr] at hr2
  cases hr2
  obtain ⟨t, ht, rfl, hty⟩ := hin
  have hversion : S.version = (W'.disp d).service.version := by
    obtain ⟨hbu, hcode⟩ := loaded_code hx hb hs hd hm
    obtain ⟨G', g', hg, he'⟩ := execWsdl_of hs hbu (digest := digest) hdig
    obtain ⟨G, o, type', header', cls', he, hrun, _, _⟩ := hc.service
    have hobj : o.service = serviceObj false o₀.wsdl g' a := by
      rw [hcode] at he
      have := Except.ok.inj (he.symm.trans he')
      injection this with _ this
      injection this with this
      rw [this]
    rw [hobj] at hrun
    obtain ⟨type, header, hrun', _⟩ := ho.service
    exact hrun.version.trans hrun'.version.symm
  have hP := client_pair (digest := digest) hs.schema.2 hk (loaded_code hx hb hs hd hm).2 hc ho hserves.sane hversion hdepth hread hwrite
  obtain ⟨v', hvv, hcv⟩ := complete_pair hP.classes hP.sane.1.names hP.sane.2.names hcomplete _ (.complex h2)
  have hD : 4 ≤ W.depth := by rw [hdepth]; exact hserves.depth
  have hdoc1 : responseXml S.version (W.table S) W.depth t.name v0 Val.none = .ok doc := by
    have h := hdoc
    unfold callDoc callTag at h
    rw [h1.input] at h
    exact h
  have hinst : ∃ fs x fs' x', v0 = .inst cin fs x ∧ v' = .inst (cls nin) fs' x' := by
    cases hcomplete with
    | inst =>
      cases hcv with
      | inst => exact ⟨_, _, _, _, rfl, rfl⟩
  obtain ⟨fs, x1, fs', x2, rfl, rfl⟩ := hinst
  rw [responseXml_pair hP hD hvv] at hdoc1
  obtain ⟨sd', e1, e2⟩ := C108_request v D g xs xs' hxs hbs hs.schema.2 hk he W' (W'.disp d).service ho.shown hserves.sane.names
    hserves.depth hmeans
  cases e1.symm.trans hsd
  exact e2 t ht nin hty _ _ _ _ hcv hdoc1 hback hun hplain

end

namespace ExVal
open Ex

theorem hello_enforced : Enforced helloSchema where
  nspace := by decide
  order := by decide
  own := by
    intro t ht c hc
    simp only [helloSchema, List.mem_cons, List.not_mem_nil, or_false] at ht
    rcases ht with rfl | rfl <;> cases hc
  elements := by
    intro c hc e he
    simp only [helloSchema, List.mem_cons, List.not_mem_nil, or_false] at hc
    rcases hc with rfl | rfl
    all_goals
      simp only [List.mem_cons, List.not_mem_nil, or_false] at he
      subst he
      exact ⟨⟨rfl, .inl (by simp)⟩, by simp⟩

def bob : Xml := .elem ⟨some py"urn:x", py"sayHello"⟩ [] none [.elem ⟨none, py"name"⟩ [] (some py"Bob") []]

def message : Xml := .elem ⟨some Version.soap11.envelopeNs, py"Envelope"⟩ [] none
  [.elem ⟨some Version.soap11.envelopeNs, py"Body"⟩ [] none [bob]]

/-- The message that calls the server with the name 'Bob'; it is valid for the server's XSD document. -/
example (compile : Str → Pattern) (iso : Iso) (v : Version) (xs' : Xml) (hb : Back (document helloSchema) xs') :
    responseXml .soap11 ((ExC.world greeter).table helloService) (ExC.world greeter).depth py"sayHello" ExC.call Val.none =
      .ok message ∧
    ∃ d, parseCls (specTable v) 12 12 xSchema xs' = .ok d ∧
      ValidRoot [some py"xsd"] (readSchema d) (fun p t => PatternAccepts (compile p) t) bob := by
  have hdoc : responseXml .soap11 ((ExC.world greeter).table helloService) (ExC.world greeter).depth py"sayHello" ExC.call Val.none =
      .ok message := rfl
  refine ⟨hdoc, ?_⟩
  have tb : ∀ t ks, t = none ∨ t = some py"Bob" → TextBack t t ks := by
    rintro t ks (rfl | rfl) <;> unfold TextBack <;> split <;> simp
  have hback : Back message message :=
    .elem (tb _ _ (.inl rfl)) (.cons (.elem (tb _ _ (.inl rfl)) (.cons (.elem (tb _ _ (.inl rfl))
      (.cons (.elem (tb _ _ (.inr rfl)) .nil) .nil)) .nil)) .nil)
  obtain ⟨d, h1, h2⟩ := C108_request v 0 helloSchema (document helloSchema) xs' (by cases v <;> rfl) hb helloSchema_survives helloSchema_kept
    hello_enforced (ExC.world greeter) helloService (hello_handWritten compile iso).shown ExC.sane.names (by decide)
    (means := fun p t => PatternAccepts (compile p) t) fun _ _ h => h
  refine ⟨d, h1, h2 _ (List.mem_cons_self ..) py"SayHello" rfl ExC.call message message bob ?_ hdoc hback ?_ ?_⟩
  · refine .inst rfl fun f w hf hw => ?_
    cases List.mem_singleton.1 hf
    cases Option.some.inj hw
    exact .single (by decide) (.val (.simple (a := .str py"Bob") rfl trivial fun h => h.elim))
  · refine .elem (.inr fun s hs => by cases hs) fun k hk => ?_
    cases List.mem_singleton.1 hk
    refine .elem (.inr fun s hs => by cases hs) fun k hk => ?_
    cases List.mem_singleton.1 hk
    refine .elem (.inr fun s hs => by cases hs) fun k hk => ?_
    cases List.mem_singleton.1 hk
    exact .elem (.inl rfl) fun k hk => absurd hk List.not_mem_nil
  · exact ⟨_, _, _, _, _, _, py"sayHello", rfl, rfl, by simp [attrGet], ⟨_, _, _, _, rfl, rfl⟩, by decide, by decide, by simp⟩

end ExVal
end Soapfish
