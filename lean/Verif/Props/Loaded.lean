import Verif.LoadedLemmas
import Verif.ShownClasses
import Verif.Props.Service
import Verif.Props.Paired
import Verif.Props.Shown
/-
A client with code generated from the WSDL document of a hand-written server (C105).
-/
set_option maxRecDepth 8000
namespace Soapfish

section
variable {compile : Str → Pattern} {iso : Iso} {cls top : Str → ClsId} {limit : Nat} {o₀ : ServiceObj} {g : GSchema}
  {a : WebAddress} {W W' : World} {S : Service} {d : DispId} {env : PyEnv} {T : Table} {code : PyWsdlModule}

/-- What the client has to do with the server. -/
theorem client_pair {digest : Str → Str} {port : PyPort} (hs : SchemaSurvives g limit) (hk : TypesKept g)
    (hcode : code = ⟨[codeModule digest g], [port]⟩) (hc : Client compile iso limit code env T W S) {S' : Service}
    (ho : HandWritten compile iso cls top W' S' o₀ g) (hsane : (W'.table S').Sane) (hv : S.version = S'.version)
    (hdepth : W.depth = W'.depth) (hread : W.read = W'.read) (hwrite : W.write = W'.write) :
    Partners (ClientServer g cls top env) W S W' S' := by
  subst hcode
  obtain ⟨var, g', hcl, hT⟩ := hc.classes
  obtain ⟨r, hr, hcl⟩ := bindI hcl
  cases hcl
  obtain ⟨env0, s0, h1, h2⟩ := execModule_ok hs digest
  have hr' : execModule [] [] limit (codeModule digest g) = .ok r := hr
  obtain rfl := Except.ok.inj (h1.symm.trans hr')
  obtain ⟨T', g1, g2, g3, g4, _⟩ := module_pair hs hk ho.shown digest h1 h2
  obtain rfl : T' = T := Option.some.inj (g1.symm.trans hT)
  have htab : W.table S = soapTable S.version T'.placed := by unfold World.table; rw [hc.user]
  refine ⟨hdepth, hread, hwrite, hv, ⟨?_, hsane⟩, ?_, ?_, ?_⟩
  · rw [htab]; exact placed_sane g3 (moduleTable_defaults g1)
  · rw [htab]
    exact g2.swap.placed
  · rintro c c' ⟨i, hi, rfl⟩
    refine ⟨?_, ?_⟩
    · rw [htab, placed_at]
      exact List.mem_append_right _ (List.mem_singleton_self _)
    · cases hi with
      | type hm => exact (ho.complex _ hm).1
      | own hm ht => exact (ho.own _ hm _ ht).1
  · rintro c c' ⟨i, hi, rfl⟩
    refine ⟨?_, ?_⟩
    · rw [htab]
      exact placed_unambiguous (g4 _ _ hi)
    · cases hi with
      | type hm => exact (ho.complex _ hm).2
      | own hm ht => exact (ho.own _ hm _ ht).2

/-- The type of an element for the client and for the server. -/
theorem client_type {S' : Service} {type type' : GTop → FType} {header header' : HeaderObj → ClsId}
    {cls' : Str → ClsId} {o : ServiceObj} {g' : GSchema} (hs : SchemaSurvives g limit) (hb : SchemaBack g g')
    (hrun : Runs W S o type' header' cls') (hsch : o.schemas = [g'])
    (ht1 : ∀ t n, t.type = .ofClass (.complex n) → type' t = .complex (env.idOf n + 8))
    (ht2 : ∀ t c, t.type = .inst (some c) → type' t = .complex (env.idOf c.name + 8))
    (hrun' : Runs W' S' o₀ type header cls) (hsch' : o₀.schemas = [g])
    (ht' : ∀ t ∈ g.elements, ∀ c, type t = .complex c → HasClass cls top t c)
    (hd : 0 < W.depth) (hd' : 0 < W'.depth) {tag : Str} {c' : ClsId}
    (he : ∃ e, S'.findElement W' tag = .ok (some e) ∧ e.type = .complex c') :
    ∃ c, ClientServer g cls top env c c' ∧ ∃ e, S.findElement W tag = .ok (some e) ∧ e.type = .complex c := by
  obtain ⟨e, he1, he2⟩ := he
  have h1 := runs_element hrun' hsch' hd' tag
  rw [he1] at h1
  have h1 : some e.type = (g.elements.find? fun e => e.name = tag).map type := Except.ok.inj h1
  cases hf : g.elements.find? (fun e => e.name = tag) with
  | none => rw [hf] at h1; cases h1
  | some t =>
    rw [hf, he2] at h1
    have htm := List.mem_of_find?_eq_some hf
    have hcls := ht' t htm c' (Option.some.inj h1).symm
    obtain ⟨t', hf', hbt⟩ := find_all2 (q := fun e : GTop => decide (e.name = tag)) hb.elements
      (fun x y hxy => by rw [hxy.name]) hf
    have h2 := runs_element hrun hsch hd tag
    rw [hf'] at h2
    cases hcls with
    | @type n hty =>
      refine ⟨env.idOf n + 8, ⟨env.idOf n, ?_, rfl⟩, ?_⟩
      · obtain ⟨_, _, h3⟩ := hs.tops t htm
        rw [hty] at h3
        obtain ⟨c, hc, rfl⟩ := h3
        exact .type hc
      · rcases hbt.type with ⟨c, k1, k2⟩ | ⟨c, c'', k1, _⟩
        · rw [hty] at k1
          cases k1
          rw [show (some t').map type' = some (type' t') from rfl, ht1 t' n k2] at h2
          exact typeFound_some h2
        · rw [hty] at k1; cases k1
    | @own c hty =>
      refine ⟨env.idOf (capName t.name) + 8, ⟨_, .own htm hty, rfl⟩, ?_⟩
      rcases hbt.type with ⟨c, k1, k2⟩ | ⟨c, c'', k1, k2, k3, _⟩
      · rw [hty] at k1; cases k1
      · rw [show (some t').map type' = some (type' t') from rfl, ht2 t' c'' k2, k3] at h2
        exact typeFound_some h2

/-- The code of the client. -/
theorem loaded_code {D : Nat} {x x' : Xml} {digest : Str → Str} {ok : Str → Bool} {n : Nat}
    (hx : generateWsdl (D + 12) o₀.wsdl = .ok x) (hb : Back x x') (hs : ServiceSurvives false limit o₀.wsdl g a)
    {description : Val} (hd : parseCls (specTable (versionFromXml x')) (D + 12) (D + 12) wDefinitions x' = .ok description)
    (hm : wsdlToPy digest ok [some py"xsd"] (n + 1) false (versionFromXml x') description = .ok code) :
    WsdlBuildable o₀.wsdl ∧ code = ⟨[codeModule digest g], [codePort digest false o₀.wsdl g a]⟩ := by
  obtain ⟨⟨hbu, _, _⟩, hxd⟩ := (C81_document D o₀.wsdl x).1 hx
  have hver : versionFromXml x' = o₀.wsdl.version := by rw [version_back hb, hxd, version_document]
  obtain ⟨d0, d', h1, h2, h3⟩ := C82_service D o₀.wsdl x x' hx hb
  rw [(build_definitions o₀.wsdl.version D o₀.wsdl).1 hbu] at h1
  injection h1 with h1; subst h1
  rw [hver] at hd hm
  obtain rfl : d' = description := Except.ok.inj (h2.symm.trans hd)
  rw [wsdlToPy_of hs hbu digest ok n h3] at hm
  exact ⟨hbu, (Except.ok.inj hm).symm⟩

/-- **C105.** A hand-written server generates its WSDL document, and a client generates its code from what it reads.  If
service and schema survive and no type loses anything, calling an operation through the client's stub gives the method of
the server a parameter that goes with the client's, and the client a response that goes with the value of the method -
provided the two documents survive transport and the request is valid. -/
theorem C105_call (D : Nat) (x x' : Xml) (digest : Str → Str) (ok : Str → Bool) (n : Nat)
    (hx : generateWsdl (D + 12) o₀.wsdl = .ok x) (hb : Back x x') (hs : ServiceSurvives false limit o₀.wsdl g a)
    (hdig : (digest g.targetNamespace).length = 5) (hk : TypesKept g)
    (description : Val) (hd : parseCls (specTable (versionFromXml x')) (D + 12) (D + 12) wDefinitions x' = .ok description)
    (hm : wsdlToPy digest ok [some py"xsd"] (n + 1) false (versionFromXml x') description = .ok code)
    -- the two programs
    (hc : Client compile iso limit code env T W S) (ho : HandWritten compile iso cls top W' (W'.disp d).service o₀ g)
    (hdepth : W.depth = W'.depth) (hread : W.read = W'.read) (hwrite : W.write = W'.write)
    -- the method
    (m : MethodId) (op tin tout : Str) (cin' cout' : ClsId) (hserves : Serves W' d m tin tout cin' cout')
    (hop : First (fun m => (W'.method m).operationName = op) (W'.disp d).service.methods m)
    (f : Val → Val) (hf : (W'.method m).function = some fun _ p => .ret (.obj (.val (f p))))
    (s : State) (environ : Dict Str → Env) (henv : ∀ hs, environ hs py"REQUEST_METHOD" = some py"POST")
    (hh : Handles W' (W'.disp d).service
      (environ ((W'.disp d).service.version.requestHeaders (W'.method m).soapAction)) tin m) :
    ∃ m₀ cin cout, ClientMethod W S m₀ op tin tout cout ∧ ClientServer g cls top env cin cin' ∧
      ClientServer g cls top env cout cout' ∧ (∃ e, S.findElement W tin = .ok (some e) ∧ e.type = .complex cin) ∧
      ∀ (v : Val) (doc : Xml), Survives (W.table S) W.depth (.complex cin) v →
        callDoc W S (W.method m₀) v Val.none = .ok doc → Travels W doc →
        (∀ doc' y, W'.read (W.write doc) = some doc' → PlainMessage doc' none y → (W'.disp d).validator y = .ok ()) →
        (∀ p, ValPair (ClientServer g cls top env) (W.table S) (W'.table (W'.disp d).service) v p → ∃ doc',
          Survives (W'.table (W'.disp d).service) W'.depth (.complex cout') (f p) ∧
          responseXml (W'.disp d).service.version (W'.table (W'.disp d).service) W'.depth tout (f p) Val.none = .ok doc' ∧
          Travels W' doc') →
        ∃ p w, ValPair (ClientServer g cls top env) (W.table S) (W'.table (W'.disp d).service) v p ∧
          ValPair (ClientServer g cls top env) (W.table S) (W'.table (W'.disp d).service) w (f p) ∧
          stubCall W S (fun hs content => served W' d s (environ hs) content) op v Val.none = .ok (mkResponse (.val w)) := by
  obtain ⟨hbu, hcode⟩ := loaded_code hx hb hs hd hm
  obtain ⟨G', g', hg, he'⟩ := execWsdl_of hs hbu (digest := digest) hdig
  obtain ⟨G, o, type', header', cls', he, hrun, ht1, ht2⟩ := hc.service
  have hobj : o.service = serviceObj false o₀.wsdl g' a := by
    rw [hcode] at he
    have := Except.ok.inj (he.symm.trans he')
    injection this with _ this
    injection this with this
    rw [this]
  rw [hobj] at hrun
  obtain ⟨type, header, hrun', ht'⟩ := ho.service
  have hsch' : o₀.schemas = [g] := hs.schema.1
  have hversion : S.version = (W'.disp d).service.version := hrun.version.trans hrun'.version.symm
  have hP := client_pair (digest := digest) hs.schema.2 hk hcode hc ho hserves.sane hversion hdepth hread hwrite
  have hd' : 0 < W'.depth := by have := hserves.depth; omega
  have hd0 : 0 < W.depth := by rw [hdepth]; exact hd'
  obtain ⟨cin, hcin, hein⟩ := client_type hs.schema.2 hg hrun rfl ht1 ht2 hrun' hsch' ht' hd0 hd'
    hserves.inputType
  obtain ⟨cout, hcout, heout⟩ := client_type hs.schema.2 hg hrun rfl ht1 ht2 hrun' hsch' ht' hd0 hd'
    hserves.outputType
  -- the client's method
  have hall : All2 (fun i j => (W.method j).operationName = (W'.method i).operationName ∧
      (W.method j).soapAction = (W'.method i).soapAction ∧
      (∀ t, (W'.method i).input = .name t → (W.method j).input = .name t) ∧
      (∀ t, (W'.method i).output = .name t → (W.method j).output = .name t)) (W'.disp d).service.methods S.methods := by
    have hmid : All2 (fun (k : MethodObj) k' => k' = methodObj false k.wsdl) o₀.methods
        (o₀.wsdl.methods.map (methodObj false)) := by
      show All2 _ o₀.methods ((o₀.methods.map (·.wsdl)).map (methodObj false))
      induction o₀.methods with
      | nil => exact .nil
      | cons k l ih => exact .cons rfl ih
    have hpart : ∀ (p : WPart) t, partAt cls p = .name t → partAt cls' p = .name t := by
      intro p t h
      cases p with
      | element n => exact h
      | cls n => cases h
      | none => cases h
    refine ((hrun'.methods.comp hmid).comp hrun.methods.flip).imp ?_
    rintro i j ⟨k', ⟨k, ⟨a1, a2, a3, a4, _⟩, rfl⟩, b1, b2, b3, b4, _⟩
    refine ⟨b1.trans a1.symm, b2.trans a2.symm, fun t ht => ?_, fun t ht => ?_⟩
    · rw [b3]; exact hpart k.input t (a3.symm.trans ht)
    · rw [b4]; exact hpart k.output t (a4.symm.trans ht)
  have hfind : (W'.disp d).service.methods.find? (fun m => decide ((W'.method m).operationName = op)) = some m := by
    have := getMethod_iff.2 hop
    unfold Service.getMethod at this
    rwa [optE_ok_iff] at this
  obtain ⟨m₀, hm₀, q1, q2, q3, q4⟩ := find_all2 (q := fun m => decide ((W.method m).operationName = op)) hall
    (fun i j h => by rw [h.1]) hfind
  have hcm : ClientMethod W S m₀ op tin tout cout :=
    ⟨getMethod_iff.1 (by unfold Service.getMethod; rw [optE_ok_iff]; exact hm₀), q3 _ hserves.input, q4 _ hserves.output, heout⟩
  refine ⟨m₀, cin, cout, hcm, hcin, hcout, hein, fun v doc hv hdoc ht hval hres => ?_⟩
  exact C103_call W S W' d hP m₀ m op tin tout cin cout cin' cout' hcin hcout hcm hserves f hf s environ henv
    (by rw [hversion, q2]; exact hh) v doc hv hdoc ht hval hres

theorem all2_range {α : Type} : ∀ (l pre : List α), All2 (fun i k => (pre ++ l)[i]? = some k) (List.range' pre.length l.length) l
  | [], pre => .nil
  | k :: l, pre => by
    refine .cons (by simp) ?_
    have := all2_range l (pre ++ [k])
    simpa using this

theorem get_elements (type : GTop → FType) (n : Str) : ∀ l : List GTop,
    (Dict.get? (l.map fun t => (t.name, ({ type := type t } : SElem))) n).map (·.type) =
      (l.find? fun e => e.name = n).map type
  | [] => rfl
  | t :: l => by
    by_cases h : t.name = n
    · simp [Dict.get?, List.find?, h]
    · simpa [Dict.get?, List.find?, h] using get_elements type n l

/-- **C105 (client).** For such a server the code of the client can be generated, and there is a program made of it, which
reads and writes XML as one pleases. -/
theorem C105_client (D : Nat) (x x' : Xml) (digest : Str → Str) (ok : Str → Bool) (n : Nat)
    (hx : generateWsdl (D + 12) o₀.wsdl = .ok x) (hb : Back x x') (hs : ServiceSurvives false limit o₀.wsdl g a)
    (hdig : (digest g.targetNamespace).length = 5) (hk : TypesKept g)
    (ho : HandWritten compile iso cls top W' (W'.disp d).service o₀ g) :
    ∃ description code, parseCls (specTable (versionFromXml x')) (D + 12) (D + 12) wDefinitions x' = .ok description ∧
      wsdlToPy digest ok [some py"xsd"] (n + 1) false (versionFromXml x') description = .ok code ∧
      ∃ env T W S, Client compile iso limit code env T W S ∧ W.depth = W'.depth ∧ W.read = W'.read ∧ W.write = W'.write := by
  obtain ⟨⟨hbu, _, _⟩, hxd⟩ := (C81_document D o₀.wsdl x).1 hx
  have hver : versionFromXml x' = o₀.wsdl.version := by rw [version_back hb, hxd, version_document]
  obtain ⟨d0, d', h1, h2, h3⟩ := C82_service D o₀.wsdl x x' hx hb
  rw [(build_definitions o₀.wsdl.version D o₀.wsdl).1 hbu] at h1
  injection h1 with h1; subst h1
  rw [hver]
  refine ⟨d', _, h2, wsdlToPy_of hs hbu digest ok n h3, ?_⟩
  obtain ⟨env, s', k1, k2⟩ := execModule_ok hs.schema.2 digest
  obtain ⟨T, k3, _⟩ := module_pair hs.schema.2 hk ho.shown digest k1 k2
  obtain ⟨G, g', _, he⟩ := execWsdl_of hs hbu (digest := digest) hdig
  let type : GTop → FType := fun t =>
    match t.type with
    | .ofClass (.complex n) => .complex (env.idOf n + 8)
    | .inst (some c) => .complex (env.idOf c.name + 8)
    | _ => .simple (.string {})
  let method : MethodObj → Method := fun k =>
    { operationName := k.operationName, soapAction := k.soapAction, input := partAt (fun _ => 0) k.input
      output := partAt (fun _ => 0) k.output, inputHeader := k.inputHeader.map fun _ => 0
      outputHeader := k.outputHeader.map fun _ => 0 }
  let ms := (serviceObj false o₀.wsdl g' a).methods
  refine ⟨env, T, { W' with
      user := T.placed
      method := fun i => (ms[i]?.map method).getD ⟨[], [], .none, .none, none, none, none⟩
      schema := fun _ => { targetNamespace := g'.targetNamespace, elements := g'.elements.map fun t => (t.name, { type := type t }) } },
    { schemas := [0], methods := List.range' 0 ms.length, version := o₀.wsdl.version }, ⟨?_, rfl, ?_⟩, rfl, rfl, rfl⟩
  · refine ⟨py"Schema_" ++ digest g.targetNamespace, s', ?_, k3⟩
    simp only [execModules, List.map_nil, k1]
    rfl
  · refine ⟨G, _, type, fun _ => 0, fun _ => 0, he, ⟨rfl, ?_, .cons ⟨rfl, rfl, fun n => get_elements type n _⟩ .nil⟩, ?_, ?_⟩
    · refine (all2_range ms []).imp ?_
      intro i k hik
      have hik : ms[i]? = some k := hik
      simp only [hik, Option.map_some, Option.getD_some]
      exact ⟨rfl, rfl, rfl, rfl, rfl, rfl⟩
    · intro t n ht
      simp only [type, ht]
    · intro t c ht
      simp only [type, ht]

end

namespace Ex

/-! A hand-written server that says hello, with the classes 8 and 9. -/

def helloSchema : GSchema where
  targetNamespace := py"urn:x"
  complexTypes :=
    [{ name := py"SayHello", elements := [{ name := py"name", type := { cls := .builtin .string } }] },
     { name := py"SayHelloResponse", elements := [{ name := py"greeting", type := { cls := .builtin .string } }] }]
  elements :=
    [{ name := py"sayHello", type := .ofClass (.complex py"SayHello") },
     { name := py"sayHelloResponse", type := .ofClass (.complex py"SayHelloResponse") }]

def helloObj : ServiceObj where
  name := py"Hello"
  targetNamespace := py"urn:x"
  location := shopAddress.text
  schemas := [helloSchema]
  methods := [{ operationName := py"SayHello", soapAction := py"urn:x/hello", input := .element py"sayHello"
                output := .element py"sayHelloResponse" }]
  version := .soap11

theorem helloSchema_survives : SchemaSurvives helloSchema 3 where
  nspace := plainText_of (by decide)
  alone := ⟨rfl, rfl⟩
  names := by
    intro n hn
    have : n = py"SayHello" ∨ n = py"SayHelloResponse" := by
      simpa [moduleNames, helloSchema, capName] using hn
    rcases this with rfl | rfl
    all_goals exact className_of (by decide) (by decide) (by decide)
  distinct := by decide +kernel
  simple := fun _ h => absurd h List.not_mem_nil
  complex := by
    intro c hc
    simp only [helloSchema, List.mem_cons, List.not_mem_nil, or_false] at hc
    rcases hc with rfl | rfl
    all_goals
      refine ⟨rfl, by simp, ?_, by decide +kernel⟩
      intro e he
      simp only [List.mem_cons, List.not_mem_nil, or_false] at he
      subst he
    · refine ⟨fieldName_of (c := 'n') (cs := py"ame") rfl rfl rfl (by decide), .inl ⟨rfl, ?_, .inl ⟨rfl, .inr rfl⟩⟩⟩
      show CommonBuiltin _
      unfold CommonBuiltin; decide
    · refine ⟨fieldName_of (c := 'g') (cs := py"reeting") rfl rfl rfl (by decide), .inl ⟨rfl, ?_, .inl ⟨rfl, .inr rfl⟩⟩⟩
      show CommonBuiltin _
      unfold CommonBuiltin; decide
  tops := by
    intro t ht
    simp only [helloSchema, List.mem_cons, List.not_mem_nil, or_false] at ht
    rcases ht with rfl | rfl
    · exact ⟨plainText_of (by decide), by simp, _, List.mem_cons_self .., rfl⟩
    · exact ⟨plainText_of (by decide), by simp, _, List.mem_cons_of_mem _ (List.mem_cons_self ..), rfl⟩
  topNames := by decide +kernel
  fields := by decide +kernel
  topFields := by
    intro t ht c hc
    simp only [helloSchema, List.mem_cons, List.not_mem_nil, or_false] at ht
    rcases ht with rfl | rfl <;> cases hc
  grounded := by
    refine ⟨fun _ => 0, fun _ => Nat.zero_lt_succ _, ?_, ?_⟩
    · intro c hc e he hm n hn
      simp only [helloSchema, List.mem_cons, List.not_mem_nil, or_false] at hc
      rcases hc with rfl | rfl <;>
      · simp only [List.mem_cons, List.not_mem_nil, or_false] at he
        subst he; cases hn
    · intro t ht c hc
      simp only [helloSchema, List.mem_cons, List.not_mem_nil, or_false] at ht
      rcases ht with rfl | rfl <;> cases hc

theorem helloObj_survives : ServiceSurvives false 3 helloObj.wsdl helloSchema shopAddress where
  schema := ⟨rfl, helloSchema_survives⟩
  name := by
    refine ⟨?_, ?_⟩
    · intro c hc
      have : c = 'H' ∨ c = 'e' ∨ c = 'l' ∨ c = 'o' := by simpa [helloObj, ServiceObj.wsdl] using hc
      unfold IdentChar
      rcases this with rfl | rfl | rfl | rfl <;> decide
    · intro c cs h
      cases h
      decide
  nspace := plainText_of (by decide)
  location := ⟨rfl, shopAddress_ok, plainText_of (by decide)⟩
  methods := by
    intro m hm
    simp only [helloObj, ServiceObj.wsdl, List.map_cons, List.map_nil, List.mem_cons, List.not_mem_nil, or_false] at hm
    subst hm
    exact ⟨⟨functionName_of (by decide) (by decide) (by decide), by decide⟩,
        ⟨_, rfl, functionName_of (by decide) (by decide) (by decide), by decide⟩,
        ⟨_, rfl, functionName_of (by decide) (by decide) (by decide)⟩, _, rfl, plainText_of (by decide)⟩
  distinct := by decide
  functions := nofun
  calls := by
    intro _ m hm
    simp only [helloObj, ServiceObj.wsdl, List.map_cons, List.map_nil, List.mem_cons, List.not_mem_nil, or_false] at hm
    subst hm
    decide

theorem helloObj_generates : generateWsdl 12 helloObj.wsdl = .ok (wsdlDocument helloObj.wsdl) := rfl

theorem helloSchema_kept : TypesKept helloSchema where
  complex := by
    intro c hc e he
    simp only [helloSchema, List.mem_cons, List.not_mem_nil, or_false] at hc
    rcases hc with rfl | rfl
    all_goals
      simp only [List.mem_cons, List.not_mem_nil, or_false] at he
      subst he
      refine ⟨fun b hb => ?_, fun st hst => absurd hst List.not_mem_nil⟩
      cases hb
      exact .text (by simp)
  own := by
    intro t ht c hc
    simp only [helloSchema, List.mem_cons, List.not_mem_nil, or_false] at ht
    rcases ht with rfl | rfl <;> cases hc

def helloCls (n : Str) : ClsId := if n = py"SayHello" then 8 else 9

theorem hello_handWritten (compile : Str → Pattern) (iso : Iso) : HandWritten compile iso helloCls helloCls (ExC.world greeter)
    helloService helloObj helloSchema where
  shown := by
    refine ⟨?_, ?_⟩
    · intro c hc
      simp only [helloSchema, List.mem_cons, List.not_mem_nil, or_false] at hc
      rcases hc with rfl | rfl
      all_goals
        refine ⟨.cons ?_ .nil, by decide, rfl, rfl, rfl⟩
        exact ⟨rfl, rfl, rfl, .simple (by simp) rfl, ⟨rfl, rfl⟩, .inl ⟨rfl, rfl, by decide, rfl, rfl⟩⟩
    · intro t ht c hc
      simp only [helloSchema, List.mem_cons, List.not_mem_nil, or_false] at ht
      rcases ht with rfl | rfl <;> cases hc
  service := by
    refine ⟨helloType, fun _ => 10, ⟨rfl, .cons ⟨rfl, rfl, rfl, rfl, rfl, rfl⟩ .nil,
      .cons ⟨rfl, rfl, two_elements rfl rfl rfl rfl⟩ .nil⟩, ?_⟩
    intro t ht c hc
    simp only [helloSchema, List.mem_cons, List.not_mem_nil, or_false] at ht
    rcases ht with rfl | rfl
    · cases hc
      exact .type (cls := helloCls) (n := py"SayHello") rfl
    · cases hc
      exact .type (cls := helloCls) (n := py"SayHelloResponse") rfl
  complex := by
    intro c hc
    simp only [helloSchema, List.mem_cons, List.not_mem_nil, or_false] at hc
    rcases hc with rfl | rfl
    · exact ⟨by decide, ExC.unambiguous 8 (.inl rfl)⟩
    · exact ⟨by decide, ExC.unambiguous 9 (.inr (.inl rfl))⟩
  own := by
    intro t ht c hc
    simp only [helloSchema, List.mem_cons, List.not_mem_nil, or_false] at ht
    rcases ht with rfl | rfl <;> cases hc

/-- The generated classes. -/
theorem hello_module (compile : Str → Pattern) (iso : Iso) (digest : Str → Str) : ∃ env var g T,
    execModules 3 [] [] [codeModule digest helloSchema] = .ok (env, [(var, g)]) ∧ moduleTable compile iso env g = some T ∧
    env.idOf py"SayHello" = 1 ∧ env.idOf py"SayHelloResponse" = 0 ∧ (T 1).fields.map (·.name) = [py"name"] :=
  ⟨_, _, _, _, rfl, rfl, rfl, rfl, rfl⟩

theorem one_field {R : ClsId → ClsId → Prop} {T T' : Table} {c : ClsId} {n : Str} {a : Atom} {x : Option Xml} {u : Val}
    (h : ValPair R T T' (.inst c [(n, .atom a)] x) u) :
    ∃ c' m x', u = .inst c' [(m, .atom a)] x' ∧ R c c' ∧ (T' c').fields.map (·.name) = [m] := by
  cases h with
  | @inst _ c' _ fs' _ x' hr h1 h2 h3 =>
    match fs', h2, h3 with
    | [(m, v)], h2, .cons hv .nil =>
      cases hv
      exact ⟨c', m, x', rfl, hr, h2.symm⟩

/-- Code for a client is generated, and a program made of it calls the server with the name 'Bob'. -/
example (compile : Str → Pattern) (iso : Iso) (x' : Xml) (hb : Back (wsdlDocument helloObj.wsdl) x') (ok : Str → Bool) :
    ∃ description code env T W S x p w,
      parseCls (specTable (versionFromXml x')) 12 12 wDefinitions x' = .ok description ∧
      wsdlToPy digest5 ok [some py"xsd"] 1 false (versionFromXml x') description = .ok code ∧
      Client compile iso 3 code env T W S ∧ p.Same ExC.call ∧
      ValPair (ClientServer helloSchema helloCls helloCls env) (W.table S) ((ExC.world greeter).table helloService) w (ExC.greet p) ∧
      stubCall W S (fun hs content => served (ExC.world greeter) 0 {} (ExC.environ hs) content) py"SayHello"
        (.inst (env.idOf py"SayHello" + 8) [(py"name", .atom (.str py"Bob"))] x) Val.none = .ok (mkResponse (.val w)) := by
  have ho := hello_handWritten compile iso
  have hdig : (digest5 helloSchema.targetNamespace).length = 5 := rfl
  obtain ⟨description, code, hd, hm, env, T, W, S, hc, e1, e2, e3⟩ := C105_client (W' := ExC.world greeter) (d := 0) 0 _ x' digest5 ok 0
    helloObj_generates hb helloObj_survives hdig helloSchema_kept ho
  obtain ⟨m₀, cin, cout, h1, h2, _, _, h3⟩ := C105_call (W' := ExC.world greeter) (d := 0) 0 _ x' digest5 ok 0
    helloObj_generates hb helloObj_survives hdig helloSchema_kept description hd hm hc ho e1 e2 e3 0 py"SayHello"
    py"sayHello" py"sayHelloResponse" 8 9
    ⟨by decide, ExC.sane, rfl, rfl, rfl, rfl, ⟨_, rfl, rfl⟩, by decide, rfl, ⟨_, rfl, rfl⟩, by decide⟩
    ⟨[], [], rfl, rfl, by simp⟩ ExC.greet rfl {} ExC.environ (fun _ => rfl)
    (.input (fun a h => by
      have : Version.determineAction .soap11 (ExC.environ (Version.soap11.requestHeaders py"urn:x/hello")) = none := by
        decide +kernel
      exact absurd (this.symm.trans h.1) (by simp)) ⟨[], [], rfl, rfl, by simp⟩)
  obtain ⟨_, hcode⟩ := loaded_code helloObj_generates hb helloObj_survives hd hm
  obtain ⟨env0, var, g, T0, k1, k2, k3, k4', k4⟩ := hello_module compile iso digest5
  obtain ⟨var', g', q1, q2⟩ := hc.classes
  rw [hcode] at q1
  have := Except.ok.inj (k1.symm.trans q1)
  injection this with this this'
  injection this' with this' _
  injection this' with _ this'
  subst this this'
  obtain rfl : T0 = T := Option.some.inj (k2.symm.trans q2)
  have hcin : cin = 9 := by
    obtain ⟨i, hi, rfl⟩ := h2
    generalize hj : (8 : ClsId) = j at hi
    cases hi with
    | @type c hcm =>
      simp only [helloSchema, List.mem_cons, List.not_mem_nil, or_false] at hcm
      rcases hcm with rfl | rfl
      · show env0.idOf py"SayHello" + 8 = 9
        rw [k3]
      · cases hj
    | @own t c htm ht =>
      simp only [helloSchema, List.mem_cons, List.not_mem_nil, or_false] at htm
      rcases htm with rfl | rfl <;> cases ht
  subst hcin
  have hv : S.version = helloService.version := by
    obtain ⟨G', g', hg, he'⟩ := execWsdl_of helloObj_survives (loaded_code helloObj_generates hb helloObj_survives hd hm).1
      (digest := digest5) hdig
    obtain ⟨G, o, type', header', cls', he, hrun, _⟩ := hc.service
    rw [hcode] at he
    have := Except.ok.inj (he.symm.trans he')
    injection this with _ this
    injection this with this
    rw [hrun.version, this]
    rfl
  have hP := client_pair (digest := digest5) helloSchema_survives helloSchema_kept hcode hc ho ExC.sane hv e1 e2 e3
  have hcall := ExC.survives 8 py"name" py"Bob" none (.inl ⟨rfl, rfl⟩) (by decide)
  obtain ⟨u, hu1, hu2⟩ := C103_counterpart hP.classes.swap hP.sane.2.names hP.sane.1 (fun c c' h => (hP.unambiguous c' c h).1)
    10 8 9 h2 _ hcall
  have hfields : ((W.table S) 9).fields.map (·.name) = [py"name"] := by
    unfold World.table
    rw [hc.user, show (9 : ClsId) = 1 + 8 from rfl, placed_at]
    show (List.map Field.placed (T0 1).fields).map (·.name) = _
    rw [List.map_map]
    exact k4
  obtain ⟨x, rfl⟩ : ∃ x, u = .inst 9 [(py"name", .atom (.str py"Bob"))] x := by
    obtain ⟨c', m, x, rfl, _, hm⟩ := one_field hu1
    cases hu2
    rw [hfields] at hm
    injection hm with hm _
    subst hm
    exact ⟨x, rfl⟩
  have hsame : ∀ p, ValPair (ClientServer helloSchema helloCls helloCls env0) (W.table S)
      ((ExC.world greeter).table helloService) (.inst 9 [(py"name", .atom (.str py"Bob"))] x) p → p.Same ExC.call := by
    intro p hp
    obtain ⟨c', m, x', rfl, hr, hm⟩ := one_field hp
    have : c' = 8 := by
      obtain ⟨i, hi, h9⟩ := hr
      cases hi with
      | @type c hcm =>
        simp only [helloSchema, List.mem_cons, List.not_mem_nil, or_false] at hcm
        rcases hcm with rfl | rfl
        · rfl
        · exact absurd (h9.trans (congrArg (· + 8) k4')) (by decide)
      | @own t c htm ht =>
        simp only [helloSchema, List.mem_cons, List.not_mem_nil, or_false] at htm
        rcases htm with rfl | rfl <;> cases ht
    subst this
    have : m = py"name" := by simpa [World.table, ExC.world, soapTable, ExC.user, helloService] using hm.symm
    subst this
    rfl
  have hdoc : responseXml S.version (W.table S) W.depth py"sayHello" (.inst 9 [(py"name", .atom (.str py"Bob"))] x) Val.none =
      .ok (ExC.env [ExC.bodyDoc ExC.ask]) := by
    rw [responseXml_pair hP (by rw [e1]; decide) hu1.swap]
    rfl
  obtain ⟨p, w, g1, g2, g3⟩ := h3 (.inst 9 [(py"name", .atom (.str py"Bob"))] x) (ExC.env [ExC.bodyDoc ExC.ask])
    (by rw [e1]; exact hu2) (by unfold callDoc callTag; rw [h1.input]; exact hdoc)
    ⟨ExC.env [ExC.bodyDoc ExC.ask], by rw [e2, e3]; rfl,
      ExC.nest_back (.cons (ExC.nest_back (.cons (ExC.nest_back (.cons (ExC.text_back _ _ _) .nil)) .nil)) .nil)⟩
    (fun _ _ _ _ => rfl) (by
      intro p hp
      obtain ⟨fs', x', doc', h1, h2, h3, h4⟩ := ExC.greets p (hsame p hp)
      exact ⟨doc', by rw [h1]; exact h2, by rw [h1]; exact h3, h4⟩)
  refine ⟨description, code, env0, T0, W, S, x, p, w, hd, hm, hc, hsame p g1, g2, ?_⟩
  rw [k3]; exact g3

end Ex
end Soapfish
