import Verif.DescribedExec
/-
Properties of the code generated from arbitrary WSDL documents: C92.
-/
set_option maxRecDepth 8000
namespace Soapfish

section
variable {digest : Str → Str} {ok : Str → Bool} {server : Bool} {v : Version} {d service port : Val}

theorem all2_key {α β γ : Type} {R : α → β → Prop} {as : List α} {bs : List β} {f : α → γ} {k : β → γ} (h : All2 R as bs)
    (hf : ∀ a b, R a b → k b = f a) : bs.map k = as.map f := by
  induction h with
  | nil => rfl
  | cons h1 _ ih => simp only [List.map_cons, hf _ _ h1, ih]

theorem portCode_binding {r : Option PyPort} (h : portCode digest ok server v d service port = .ok r) :
    ∃ binding reference, HasText port py"binding" reference ∧ NamesItem d py"bindings" reference binding ∧
      ((r = none ∧ binding.path [py"binding", py"transport"] ≠ some (.atom (.str nsSoapHttp))) ∨
        ∃ P functions methods location schemas stub, r = some P ∧
          binding.path [py"binding", py"transport"] = some (.atom (.str nsSoapHttp)) ∧
          (if server then mapE (functionCode d binding) (readList binding py"operations") else .ok []) = .ok functions ∧
          mapE (methodCode digest server d binding) (readList binding py"operations") = .ok methods ∧
          onUrl (urlTemplate ok) (addressOf port) = .ok location ∧
          mapE (schemaVarOf digest d) (schemasOf d) = .ok schemas ∧
          (if server then stub = none else ∃ s, stub = some s ∧ stubCode ok d binding port = .ok s) ∧
          P = ⟨functions, methods, textOf (readStr port py"name"), textOf (readStr d py"targetNamespace"), location, schemas,
            v, stub⟩) := by
  obtain ⟨bs, h1, h⟩ := bindI h
  obtain ⟨bn, h2, h⟩ := bindI h
  obtain ⟨binding, h3, h⟩ := bindI h
  obtain ⟨ref, hr, hb⟩ := refers_of (v := d) (w := port) (l := py"bindings") (r := py"binding") (item := binding)
    (by rw [h1, h2]; exact h3)
  refine ⟨binding, ref, hr, hb, ?_⟩
  split at h
  · rename_i ht
    obtain ⟨functions, h4, h⟩ := bindI h
    obtain ⟨methods, h5, h⟩ := bindI h
    obtain ⟨location, h6, h⟩ := bindI h
    obtain ⟨schemas, h7, h⟩ := bindI h
    obtain ⟨stub, h8, h⟩ := bindI h
    injection h with h
    refine .inr ⟨_, functions, methods, location, schemas, stub, h.symm, (transport_iff _ _).1 ht, h4, h5, h6, h7, ?_, rfl⟩
    cases server with
    | true =>
      obtain ⟨_, h8⟩ := seqI h8
      exact (Except.ok.inj h8).symm
    | false =>
      obtain ⟨s, hs, h8⟩ := bindI h8
      exact ⟨s, (Except.ok.inj h8).symm, hs⟩
  · rename_i ht
    injection h with h
    exact .inl ⟨h.symm, fun hp => ht ((transport_iff _ _).2 hp)⟩

theorem portFor_of {binding : Val} {P : PyPort} {functions : List PyFunction} {methods : List PyMethod} {location : Str}
    {schemas : List Str} {stub : Option PyStub} {g g' : Globals} {o : PortObj}
    (h4 : (if server then mapE (functionCode d binding) (readList binding py"operations") else .ok []) = .ok functions)
    (h5 : mapE (methodCode digest server d binding) (readList binding py"operations") = .ok methods)
    (h6 : onUrl (urlTemplate ok) (addressOf port) = .ok location)
    (h8 : if server then stub = none else ∃ s, stub = some s ∧ stubCode ok d binding port = .ok s)
    (hP : P = ⟨functions, methods, textOf (readStr port py"name"), textOf (readStr d py"targetNamespace"), location, schemas,
      v, stub⟩) (hc : checkPort P = .ok ()) (he : execPort g P = .ok (g', o)) : PortFor d server v port binding o := by
  subst hP
  obtain ⟨hcf, hc⟩ := seqI hc
  obtain ⟨hcm, hc⟩ := seqI hc
  obtain ⟨hcn, hc⟩ := seqI hc
  obtain ⟨_, hc⟩ := seqI hc
  obtain ⟨_, hc⟩ := seqI hc
  obtain ⟨_, hc⟩ := seqI hc
  obtain ⟨g1, hem, he⟩ := bindI he
  obtain ⟨s, hes, he⟩ := bindI he
  obtain ⟨k1, k2, k3, k4, k5, k6⟩ := execService_ok hes
  have hpn : PlainText '\'' (textOf (readStr port py"name")) := plain_suffix (checkIdent_ok hcn)
  have hms := mapE_all2 h5
  -- the names and parameters of the functions
  have hkey : (∀ op ∈ readList binding py"operations", isIdent (textOf (readStr op py"name")) = true) ∧
      ∀ op ∈ readList binding py"operations", ∀ message, getMessageObject d binding op py"input" = .ok message →
        ∃ part n, PartElement message part n ∧ isIdent n = true := by
    cases server with
    | true =>
      have hf := mapE_all2 h4
      refine ⟨?_, ?_⟩
      · intro op hop
        obtain ⟨f, hfm, hfc⟩ := hf.mem_left hop
        have := (seqI (forE_mem hcf f hfm)).1
        rw [function_name hfc] at this
        exact checkIdent_ok this
      · intro op hop message hm
        obtain ⟨f, hfm, hfc⟩ := hf.mem_left hop
        have := (seqI (seqI (forE_mem hcf f hfm)).2).1
        exact function_input hfc ((checkSignature_ok this).1 _ (by simp)) hm
    | false =>
      obtain ⟨st, rfl, hs⟩ := h8
      obtain ⟨_, _, hs⟩ := bindI hs
      obtain ⟨_, _, hs⟩ := bindI hs
      obtain ⟨calls, hcl, hs⟩ := bindI hs
      injection hs with hs
      subst hs
      obtain ⟨_, hc⟩ := seqI hc
      obtain ⟨_, hc⟩ := seqI hc
      obtain ⟨_, hc⟩ := seqI hc
      have hf := mapE_all2 hcl
      refine ⟨?_, ?_⟩
      · intro op hop
        obtain ⟨f, hfm, hfc⟩ := hf.mem_left hop
        have := (seqI (forE_mem hc f hfm)).1
        rw [call_name hfc] at this
        exact checkMember_ok this
      · intro op hop message hm
        obtain ⟨f, hfm, hfc⟩ := hf.mem_left hop
        have := (seqI (seqI (forE_mem hc f hfm)).2).1
        exact call_input hfc ((checkSignature_ok this).1 _ (by simp)) hm
  have hnames : ∀ M ∈ methods, isIdent M.name = true := by
    intro M hM
    obtain ⟨op, hop, hc⟩ := hms.mem_right hM
    rw [method_name hc]
    exact hkey.1 op hop
  have hmeth := methods_for hms hnames hkey.2 hem k6
  have hserv : o.service = s := by
    cases server with
    | true => subst h8; cases he; rfl
    | false =>
      obtain ⟨st, rfl, hs⟩ := h8
      obtain ⟨_, _, he⟩ := bindI he
      cases he; rfl
  have hloc : ∀ a : WebAddress, a.Ok → port.path [py"address", py"location"] = some (.atom (.str a.text)) →
      location = templated a := by
    intro a ha hp
    rw [addressOf_path hp] at h6
    have h6 : urlTemplate ok a.text = .ok location := h6
    rw [urlTemplate_eq ok a ha] at h6
    exact (Except.ok.inj h6).symm
  constructor
  · intro n hn
    rw [hserv, literal_plain_eq k1 hpn]
    show textOf (readStr port py"name") = n
    rw [readStr_of hn]; rfl
  · intro n hn
    have := literal_means k2
    rw [show textOf (readStr d py"targetNamespace") = n by rw [readStr_of hn]; rfl] at this
    rw [hserv]
    exact this
  · rw [hserv, k4]
  · intro a ha hp
    have := literal_means k3
    rw [hserv, ← show templated a = py"${scheme}://${host}" ++ a.tidied.rest from rfl, ← hloc a ha hp]
    exact this
  · rw [hserv]
    exact ⟨_, readList_items _ _, hmeth⟩
  · cases server with
    | true => subst h8; cases he; rfl
    | false =>
      obtain ⟨st, rfl, hs⟩ := h8
      obtain ⟨stub, hst, he⟩ := bindI he
      injection he with he
      injection he with _ he
      subst he
      refine ⟨stub, rfl, ?_⟩
      obtain ⟨scheme, hsc, hs⟩ := bindI hs
      obtain ⟨host, hho, hs⟩ := bindI hs
      obtain ⟨calls, hcl, hs⟩ := bindI hs
      injection hs with hs
      subst hs
      have hst : _ = _ := hst
      unfold execStub at hst
      split at hst
      · cases hst
      obtain ⟨_, hst⟩ := seqI (x := .ok ()) hst
      obtain ⟨scheme', hsc', hst⟩ := bindI hst
      obtain ⟨host', hho', hst⟩ := bindI hst
      obtain ⟨calls', hcl', hst⟩ := bindI hst
      injection hst with hst
      subst hst
      have hclm := mapE_all2 hcl
      have hcalls := all_calls (fun c hcm => by
        obtain ⟨op, hop, hcc⟩ := hclm.mem_right hcm
        rw [call_name hcc]
        exact hkey.1 op hop) hcl'
      subst hcalls
      have hnm : calls.map (·.1) = s.methods.map (·.operationName) := by
        have e1 := all2_key (f := fun op => textOf (readStr op py"name")) (k := fun c : Str × Str => c.1) hclm
          fun _ _ h => call_name h
        have e2 := all2_key (f := fun op => textOf (readStr op py"name")) (k := fun k : MethodObj => k.operationName) hmeth
          fun op k ⟨_, _, _, _, h, _⟩ => by rw [readStr_of h]; rfl
        rw [e1, e2]
      refine ⟨rfl, ?_, ?_⟩
      · intro a ha hpl hd hp
        obtain ⟨t, sc, ho, l, q1, q2, q3, q4, q5, _⟩ := C90_exact ok a ha hd
        rw [addressOf_path hp] at hsc hho
        have hsc : urlScheme ok a.text = .ok scheme := hsc
        have hho : urlNetloc ok a.text = .ok host := hho
        have e1 : s.location = t := by
          rw [urlTemplate_eq ok a ha] at q1
          rw [← Except.ok.inj q1]
          have := hloc a ha hp
          subst this
          exact literal_plain_eq k3 (plain_template hpl)
        have ht := hpl
        unfold WebAddress.text at ht
        rw [(C90_location ok a ha).1] at q2 hsc
        rw [(C90_location ok a ha).2.1] at q3 hho
        obtain rfl := Except.ok.inj q2
        obtain rfl := Except.ok.inj q3
        obtain rfl := Except.ok.inj hsc
        obtain rfl := Except.ok.inj hho
        cases literal_plain_eq hsc' (plain_left (plain_left (plain_left ht)))
        cases literal_plain_eq hho' (plain_right (plain_left ht))
        show stubLocation s.location a.scheme a.host .none = _
        rw [e1, q4, q5]
      · intro m hm
        have hmn : m.operationName ∈ calls.map (·.1) := by
          rw [hnm]
          exact List.mem_map.2 ⟨m, hm, rfl⟩
        obtain ⟨c, hc1, hc2⟩ := find_last hmn
        have hany : ((calls.map fun c => (c.1, c.2, c.1)).any fun c => c.1 = py"call") =
            decide (py"call" ∈ s.methods.map (·.operationName)) := by
          rw [← hnm, List.any_map, Bool.eq_iff_iff, List.any_eq_true]
          simp
        unfold StubObj.invoke
        simp only [hc1, hany, hc2, decide_eq_true_eq]
        unfold stubAttributes
        by_cases h1 : m.operationName ∈ [py"username", py"password", py"service", py"location"]
        · rw [if_pos h1, if_pos (.inl h1)]
        · rw [if_neg h1]
          by_cases h2 : py"call" ∈ s.methods.map (·.operationName)
          · rw [if_pos h2, if_pos (.inr h2)]
          · rw [if_neg h2, if_neg (not_or.2 ⟨h1, h2⟩)]

theorem portsFor_of : ∀ {l : List (Val × Val)} {r : List (Option PyPort)} {g g' : Globals} {os : List PortObj},
    All2 (fun p q => portCode digest ok server v d p.1 p.2 = .ok q) l r → forE checkPort (r.filterMap id) = .ok () →
    execPorts g (r.filterMap id) = .ok (g', os) → PortsFor d server v (l.map (·.2)) os := by
  intro l r g g' os h
  induction h generalizing g g' os with
  | nil => intro _ he; cases he; exact .nil
  | @cons p q l r h1 _ ih =>
    intro hc he
    obtain ⟨binding, ref, hr, hb, ⟨rfl, ht⟩ | ⟨P, functions, methods, location, schemas, stub, rfl, ht, h4, h5, h6, _, h8, hP⟩⟩ :=
      portCode_binding h1
    · exact .other hr hb ht (ih hc he)
    · obtain ⟨hc1, hc2⟩ := seqI hc
      obtain ⟨⟨g1, o⟩, he1, he⟩ := bindI he
      obtain ⟨⟨g2, os'⟩, he2, he⟩ := bindI he
      cases he
      exact .soap hr hb ht (portFor_of h4 h5 h6 h8 hP hc1 he1) (ih hc2 he2)

/-- **C92.** Let code be generated from any WSDL document and imported.  It defines one service for each port of the document
whose binding is SOAP over HTTP, in their order.  The service has the port's name, the target namespace of the document, the
version, the address with placeholders, and one method for each operation of the binding in their order, with the
operation's SOAP action and style, and with the elements that the messages of the operation refer to: messages are found
through the port type of the binding.  Of operations with the same name the last counts.  For a client there is a stub. -/
theorem C92_services {prefixes : List (Option Str)} {n limit : Nat} {m : PyWsdlModule} {G : Globals} {os : List PortObj}
    (hm : wsdlToPy digest ok prefixes n server v d = .ok m) (he : execWsdl limit m = .ok (G, os)) :
    ∃ ports, PortsOf d ports ∧ PortsFor d server v ports os := by
  obtain ⟨_, _, hm⟩ := bindI hm
  obtain ⟨ps, hps, hm⟩ := bindI hm
  injection hm with hm
  subst hm
  obtain ⟨_, he⟩ := seqI he
  obtain ⟨hc, he⟩ := seqI he
  obtain ⟨r, _, he⟩ := bindI he
  refine ⟨_, ?_, portsFor_of (mapE_all2 hps) hc he⟩
  refine ⟨_, (readList d py"services").map (readList · py"ports"), readList_items _ _, ?_, ?_⟩
  · induction readList d py"services" with
    | nil => exact .nil
    | cons s l ih => exact .cons (readList_items _ _) ih
  · unfold portsOf
    induction readList d py"services" with
    | nil => rfl
    | cons s l ih =>
      rw [List.flatMap_cons, List.map_append, ih, List.map_cons, List.flatten_cons, List.map_map]
      congr 1
      exact List.map_id _

/-! ### Schemas -/

theorem get_schema {g : Globals} {n k : Str} {o : GlobalObj} {s : GSchema} (ho : ∀ s, o ≠ .schema s)
    (h : Globals.get ((k, o) :: g) n = some (.schema s)) : g.get n = some (.schema s) := by
  by_cases hk : k = n
  · subst hk
    rw [Globals.get_cons_self] at h
    exact absurd (Option.some.inj h) (ho s)
  · rwa [Globals.get_cons_ne _ _ hk] at h

theorem execMethod_schema {g g' : Globals} {M : PyMethod} (h : execMethod g M = .ok g') {n : Str} {s : GSchema}
    (hs : g'.get n = some (.schema s)) : g.get n = some (.schema s) := by
  obtain ⟨g0, hh, h⟩ := bindI h
  obtain ⟨_, h⟩ := seqI h
  obtain ⟨f, hf, h⟩ := bindI h
  obtain ⟨_, _, h⟩ := bindI h
  obtain ⟨_, _, h⟩ := bindI h
  obtain ⟨_, _, h⟩ := bindI h
  obtain ⟨_, _, h⟩ := bindI h
  obtain ⟨_, _, h⟩ := bindI h
  obtain ⟨_, _, h⟩ := bindI h
  obtain ⟨_, _, h⟩ := bindI h
  injection h with h
  subst h
  have hs := get_schema (g := g0) (by intro s h; cases h) hs
  have key : ∀ (l : List PyHeader) (a b : Globals), execHeaders a l = .ok b → b.get n = some (.schema s) →
      a.get n = some (.schema s) := by
    intro l
    induction l with
    | nil => intro a b h hb; cases h; exact hb
    | cons x l ih =>
      intro a b h hb
      obtain ⟨a', h1, h⟩ := bindI h
      have := ih a' b h hb
      obtain ⟨_, _, _, rfl⟩ := execHeader_ok h1
      exact get_schema (g := a) (by intro s h; cases h) this
  exact key _ _ _ hh hs

theorem execMethods_schema : ∀ {l : List PyMethod} {g g' : Globals}, execMethods g l = .ok g' → ∀ {n : Str} {s : GSchema},
    g'.get n = some (.schema s) → g.get n = some (.schema s) := by
  intro l
  induction l with
  | nil => intro g g' h n s hs; cases h; exact hs
  | cons M l ih =>
    intro g g' h n s hs
    obtain ⟨g1, h1, h⟩ := bindI h
    exact execMethod_schema h1 (ih h hs)

theorem defFunctions_schema : ∀ {l : List PyFunction} {g : Globals} {n : Str} {s : GSchema},
    (defFunctions g l).get n = some (.schema s) → g.get n = some (.schema s) := by
  intro l
  induction l with
  | nil => intro g n s h; exact h
  | cons f l ih =>
    intro g n s h
    exact get_schema (g := g) (by intro s h; cases h) (ih h)

theorem schemaNamed_ok {g : Globals} {n : Str} {s : GSchema} (h : schemaNamed g n = .ok s) : g.get n = some (.schema s) := by
  unfold schemaNamed at h
  split at h
  · rename_i hg; injection h with h; subst h; exact hg
  · cases h
  · cases h

/-- The schemas of all services come from the start. -/
theorem execPorts_schemas : ∀ {l : List PyPort} {g g' : Globals} {os : List PortObj}, execPorts g l = .ok (g', os) →
    All2 (fun p o => All2 (fun n s => g.get n = some (.schema s)) p.schemas o.service.schemas) l os := by
  intro l
  induction l with
  | nil => intro g g' os h; cases h; exact .nil
  | cons p l ih =>
    intro g g' os h
    obtain ⟨⟨g1, o⟩, h1, h⟩ := bindI h
    obtain ⟨⟨g2, os'⟩, h2, h⟩ := bindI h
    cases h
    obtain ⟨g3, h3, h1⟩ := bindI h1
    obtain ⟨sv, h4, h1⟩ := bindI h1
    have hback : ∀ {n : Str} {s : GSchema}, g3.get n = some (.schema s) → g.get n = some (.schema s) :=
      fun h => defFunctions_schema (execMethods_schema h3 h)
    have hsv : o.service = sv ∧ ∀ {n : Str} {s : GSchema}, g1.get n = some (.schema s) → g.get n = some (.schema s) := by
      split at h1
      · cases h1
        exact ⟨rfl, fun h => hback (get_schema (by intro s h; cases h) h)⟩
      · obtain ⟨st, _, h1⟩ := bindI h1
        cases h1
        exact ⟨rfl, fun h => hback (get_schema (by intro s h; cases h)
          (get_schema (by intro s h; cases h) h))⟩
    refine .cons ?_ ((ih h2).imp fun _ _ h => h.imp fun _ _ h => hsv.2 h)
    rw [hsv.1]
    exact (execService_ok h4).2.2.2.2.1.imp fun _ _ h => hback (schemaNamed_ok h)

/-- Every schema object is that of one of the modules. -/
theorem execModules_vars {limit : Nat} : ∀ {l : List PyModule} {env : PyEnv} {vars : List (Str × GSchema)}
    {r : PyEnv × List (Str × GSchema)}, execModules limit env vars l = .ok r →
    ∀ p ∈ r.2, p ∈ vars ∨ ∃ m ∈ l, m.schema.var = p.1 ∧ ∃ vs env env', execModule vs env limit m = .ok (env', p.2) := by
  intro l
  induction l with
  | nil => intro env vars r h p hp; cases h; exact .inl hp
  | cons m l ih =>
    intro env vars r h p hp
    obtain ⟨⟨env1, s⟩, h1, h⟩ := bindI h
    rcases ih h p hp with h2 | ⟨m', hm', h2⟩
    · rcases List.mem_cons.1 h2 with rfl | h2
      · exact .inr ⟨m, List.mem_cons_self .., rfl, _, _, _, h1⟩
      · exact .inl h2
    · exact .inr ⟨m', List.mem_cons_of_mem _ hm', h2⟩

theorem dictTops_mem (l : List TopObj) : (∀ t ∈ dictTops l, t ∈ l) ∧ ∀ t ∈ l, ∃ u ∈ dictTops l, u.name = t.name := by
  have key : ∀ (l acc : List TopObj), (∀ t ∈ l.foldl (fun acc t => if acc.any (fun u => u.name = t.name) then
      acc.map (fun u => if u.name = t.name then t else u) else acc ++ [t]) acc, t ∈ acc ∨ t ∈ l) ∧
      ∀ t, t ∈ acc ∨ t ∈ l → ∃ u ∈ l.foldl (fun acc t => if acc.any (fun u => u.name = t.name) then
      acc.map (fun u => if u.name = t.name then t else u) else acc ++ [t]) acc, u.name = t.name := by
    intro l
    induction l with
    | nil => intro acc; exact ⟨fun t h => .inl h, fun t h => ⟨t, h.resolve_right List.not_mem_nil, rfl⟩⟩
    | cons x l ih =>
      intro acc
      simp only [List.foldl_cons]
      obtain ⟨h1, h2⟩ := ih (if acc.any (fun u => u.name = x.name) then
        acc.map (fun u => if u.name = x.name then x else u) else acc ++ [x])
      refine ⟨?_, ?_⟩
      · intro t ht
        rcases h1 t ht with h | h
        · split at h
          · obtain ⟨u, hu, rfl⟩ := List.mem_map.1 h
            split
            · exact .inr (List.mem_cons_self ..)
            · exact .inl hu
          · rcases List.mem_append.1 h with h | h
            · exact .inl h
            · exact .inr (List.mem_cons.2 (.inl (List.mem_singleton.1 h)))
        · exact .inr (List.mem_cons_of_mem _ h)
      · intro t ht
        have hx : ∃ w, (w ∈ (if acc.any (fun u => u.name = x.name) then
            acc.map (fun u => if u.name = x.name then x else u) else acc ++ [x]) ∨ w ∈ l) ∧ w.name = t.name := by
          rcases ht with ht | ht
          · split
            · by_cases he : t.name = x.name
              · exact ⟨x, .inl (List.mem_map.2 ⟨t, ht, by rw [if_pos he]⟩), he.symm⟩
              · exact ⟨t, .inl (List.mem_map.2 ⟨t, ht, by rw [if_neg he]⟩), rfl⟩
            · exact ⟨t, .inl (List.mem_append_left _ ht), rfl⟩
          · rcases List.mem_cons.1 ht with rfl | ht
            · split
              · rename_i ha
                obtain ⟨u, hu, he⟩ := List.any_eq_true.1 ha
                exact ⟨t, .inl (List.mem_map.2 ⟨u, hu, by rw [if_pos (of_decide_eq_true he)]⟩), rfl⟩
              · exact ⟨t, .inl (List.mem_append_right _ (List.mem_singleton_self _)), rfl⟩
            · exact ⟨t, .inr ht, rfl⟩
        obtain ⟨w, hw, he⟩ := hx
        obtain ⟨u, hu, hu2⟩ := h2 w hw
        exact ⟨u, hu, hu2.trans he⟩
  obtain ⟨h1, h2⟩ := key l []
  exact ⟨fun t ht => (h1 t ht).resolve_left List.not_mem_nil, fun t ht => h2 t (.inr ht)⟩

/-- What the schema object of a module shows. -/
theorem execModule_shows {vs : SchemaVars} {env env' : PyEnv} {limit : Nat} {m : PyModule} {g : GSchema}
    (h : execModule vs env limit m = .ok (env', g)) : Means '\'' m.schema.targetNamespace g.targetNamespace ∧
      (∀ t ∈ m.schema.elements, ∃ e ∈ g.elements, Means '\'' t.name e.name) ∧
      ∀ e ∈ g.elements, ∃ t ∈ m.schema.elements, Means '\'' t.name e.name := by
  obtain ⟨_, h⟩ := seqI h
  obtain ⟨env1, _, h⟩ := bindI h
  obtain ⟨s, h1, h⟩ := bindI h
  injection h with h
  injection h with _ h
  subst h
  obtain ⟨_, _, h1⟩ := bindI h1
  obtain ⟨_, _, h1⟩ := bindI h1
  obtain ⟨tns, h2, h1⟩ := bindI h1
  obtain ⟨_, _, h1⟩ := bindI h1
  obtain ⟨_, _, h1⟩ := bindI h1
  obtain ⟨_, _, h1⟩ := bindI h1
  obtain ⟨_, _, h1⟩ := bindI h1
  obtain ⟨_, _, h1⟩ := bindI h1
  obtain ⟨tops, h3, h1⟩ := bindI h1
  obtain ⟨_, h1⟩ := seqI h1
  obtain ⟨_, h1⟩ := seqI h1
  obtain ⟨_, h1⟩ := seqI h1
  obtain ⟨_, h1⟩ := seqI h1
  obtain ⟨_, _, h1⟩ := bindI h1
  obtain ⟨_, _, h1⟩ := bindI h1
  obtain ⟨els, h4, h1⟩ := bindI h1
  injection h1 with h1
  subst h1
  have ht := (mapI_inv h3).imp (S := fun (t : PyTop) (o : TopObj) => Means '\'' t.name o.name) (by
    intro t o h
    obtain ⟨n, hn, h⟩ := bindI h
    obtain ⟨_, _, h⟩ := bindI h
    obtain ⟨_, _, h⟩ := bindI h
    injection h with h
    subst h
    exact literal_means hn)
  have he := (mapI_inv h4).imp (S := fun (o : TopObj) (e : GTop) => e.name = o.name) (by
    intro o e h
    obtain ⟨_, _, h⟩ := bindI h
    injection h with h
    subst h
    rfl)
  obtain ⟨d1, d2⟩ := dictTops_mem tops
  refine ⟨literal_means h2, ?_, ?_⟩
  · intro t htm
    obtain ⟨o, ho, hto⟩ := ht.mem_left htm
    obtain ⟨u, hu, hun⟩ := d2 o ho
    obtain ⟨e, hee, hen⟩ := he.mem_left hu
    exact ⟨e, hee, by rw [hen, hun]; exact hto⟩
  · intro e hee
    obtain ⟨u, hu, hen⟩ := he.mem_right hee
    obtain ⟨t, ht', htu⟩ := ht.mem_right (d1 u hu)
    exact ⟨t, ht', by rw [hen]; exact htu⟩

theorem schemaToPy_shows {prefixes : List (Option Str)} {n : Nat} {parent : Option Str} {s : DSchema} {m : PyModule}
    (h : schemaToPy prefixes digest n parent s = .ok m) :
    schemaName digest (s.targetNamespace.or parent) = .ok m.schema.var ∧
    m.schema.targetNamespace = textOf (s.targetNamespace.or parent) ∧
    All2 (fun (e : DTop) (t : PyTop) => t.name = textOf e.name) s.elements m.schema.elements := by
  obtain ⟨cts, _, h⟩ := bindI h
  obtain ⟨r, hr, h⟩ := bindI h
  injection h with h
  subst h
  obtain ⟨_, _, hr⟩ := bindI hr
  obtain ⟨_, _, hr⟩ := bindI hr
  obtain ⟨_, _, hr⟩ := bindI hr
  obtain ⟨_, _, hr⟩ := bindI hr
  obtain ⟨_, _, hr⟩ := bindI hr
  obtain ⟨sch, hs, hr⟩ := bindI hr
  injection hr with hr
  subst hr
  obtain ⟨var, hv, hs⟩ := bindI hs
  obtain ⟨_, _, hs⟩ := bindI hs
  obtain ⟨_, _, hs⟩ := bindI hs
  obtain ⟨_, _, hs⟩ := bindI hs
  obtain ⟨_, _, hs⟩ := bindI hs
  obtain ⟨_, _, hs⟩ := bindI hs
  obtain ⟨_, _, hs⟩ := bindI hs
  obtain ⟨els, he, hs⟩ := bindI hs
  injection hs with hs
  subst hs
  refine ⟨hv, rfl, (mapE_all2 he).imp ?_⟩
  intro e t h
  obtain ⟨_, _, h⟩ := bindI h
  injection h with h
  subst h
  rfl

theorem schemasOf_spec (d : Val) : SchemasOf d (schemasOf d) := by
  unfold schemasOf
  refine ⟨?_, ?_⟩
  · cases h : readChild d py"types" with
    | none => exact .inl rfl
    | some t =>
      rcases readList_items t py"schemas" with h1 | ⟨h1, _⟩
      · exact .inr ⟨t, readChild_attr h, h1⟩
      · exact .inl h1
  · intro types l h1 h2
    have : readChild d py"types" = some types := by
      obtain ⟨_, h2⟩ := h2
      exact readChild_of h1 h2
    rw [this]
    exact readList_of h2

theorem namespace_of {d s : Val} {n : Str} (h : (readStr s py"targetNamespace").or (readStr d py"targetNamespace") = some n) :
    NamespaceOf d s n := by
  cases hs : readStr s py"targetNamespace" with
  | some m =>
    rw [hs] at h
    injection h with h
    subst h
    exact .inl (readStr_some hs)
  | none =>
    rw [hs] at h
    exact .inr ⟨fun n => readStr_none hs, readStr_some h⟩

theorem namespace_eq {d s : Val} {n : Str} (h : NamespaceOf d s n) :
    (readStr s py"targetNamespace").or (readStr d py"targetNamespace") = some n := by
  rcases h with h | ⟨h1, h2⟩
  · rw [readStr_of h]; rfl
  · cases hs : readStr s py"targetNamespace" with
    | some m => exact absurd (readStr_some hs) (h1 m)
    | none => rw [readStr_of h2]; rfl

theorem reorderDescribed_mem {l : List DSchema} {s : DSchema} (h : s ∈ reorderDescribed l) : s ∈ l := by
  unfold reorderDescribed at h
  obtain ⟨p, _, hp⟩ := List.mem_filterMap.1 h
  exact List.mem_of_getElem? hp

/-- **C92 (schemas).** The services have one schema object for each schema of the document, in their order, with its target
namespace and elements of the same names; unless another schema has the same digest of its namespace, then it may be the
object for that one. -/
theorem C92_schemas {prefixes : List (Option Str)} {n limit : Nat} {m : PyWsdlModule} {G : Globals} {os : List PortObj}
    (hm : wsdlToPy digest ok prefixes n server v d = .ok m) (he : execWsdl limit m = .ok (G, os)) :
    ∃ schemas, SchemasOf d schemas ∧ ∀ o ∈ os, All2 (fun s g => ∃ s' ∈ schemas, SchemaFor d s' g ∧
      ∀ n n', NamespaceOf d s n → NamespaceOf d s' n' → digest n' = digest n) schemas o.service.schemas := by
  refine ⟨_, schemasOf_spec d, ?_⟩
  obtain ⟨ms, hms, hm⟩ := bindI hm
  obtain ⟨ps, hps, hm⟩ := bindI hm
  injection hm with hm
  subst hm
  obtain ⟨_, he⟩ := seqI he
  obtain ⟨hc, he⟩ := seqI he
  obtain ⟨r, hr, he⟩ := bindI he
  intro o ho
  obtain ⟨P, hP, hschemas⟩ := (execPorts_schemas he).mem_right ho
  -- the port's variables
  have hvars : mapE (schemaVarOf digest d) (schemasOf d) = .ok P.schemas := by
    obtain ⟨q, hq, hqP⟩ := List.mem_filterMap.1 hP
    obtain ⟨pp, _, hpc⟩ := (mapE_all2 hps).mem_right hq
    obtain ⟨_, _, _, _, ⟨rfl, _⟩ | ⟨P', _, _, _, schemas, _, rfl, _, _, _, _, h7, _, hP'⟩⟩ := portCode_binding hpc
    · cases hqP
    · cases hqP
      rw [hP']
      exact h7
  refine all2_comp (mapE_all2 hvars) hschemas ?_
  intro s hs var g hv hg
  -- the variable is one of the schemas
  have hmem : (var, g) ∈ r.2 := by
    unfold Globals.get at hg
    obtain ⟨p, hp, hpg⟩ := Option.map_eq_some_iff.1 hg
    have hpv : p.1 = var := by simpa using List.find?_some hp
    rcases List.mem_append.1 (List.mem_of_find?_eq_some hp) with h | h
    · obtain ⟨q, hq, rfl⟩ := List.mem_map.1 h
      injection hpg with hpg
      subst hpg hpv
      exact hq
    · obtain ⟨q, hq, rfl⟩ := List.mem_map.1 h
      cases hpg
  rcases execModules_vars hr _ hmem with h | ⟨M, hM, hMv, vs, env, env', hex⟩
  · cases h
  obtain ⟨ds, hds, hpy⟩ := (mapE_all2 hms).mem_right hM
  obtain ⟨s', hs', rfl⟩ := List.mem_map.1 (reorderDescribed_mem hds)
  obtain ⟨p1, p2, p3⟩ := schemaToPy_shows hpy
  obtain ⟨e1, e2, e3⟩ := execModule_shows hex
  have hns : ∃ ns, NamespaceOf d s' ns ∧ M.schema.var = py"Schema_" ++ digest ns ∧ M.schema.targetNamespace = ns := by
    have p1 : schemaName digest ((readStr s' py"targetNamespace").or (readStr d py"targetNamespace")) = _ := p1
    have p2 : _ = textOf ((readStr s' py"targetNamespace").or (readStr d py"targetNamespace")) := p2
    cases h : (readStr s' py"targetNamespace").or (readStr d py"targetNamespace") with
    | none => rw [h] at p1; cases p1
    | some ns =>
      rw [h] at p1 p2
      exact ⟨ns, namespace_of h, (Except.ok.inj p1).symm, p2⟩
  obtain ⟨ns, hns1, hns2, hns3⟩ := hns
  refine ⟨s', hs', ⟨⟨ns, hns1, hns3 ▸ e1⟩, _, readList_items _ _, ?_, ?_⟩, ?_⟩
  · intro e hee n hn
    obtain ⟨t, ht, hte⟩ := p3.mem_left (a := readTop e) (List.mem_map.2 ⟨e, hee, rfl⟩)
    obtain ⟨x, hx, hxm⟩ := e2 t ht
    refine ⟨x, hx, ?_⟩
    rw [hte, show (readTop e).name = some n from readStr_of hn] at hxm
    exact hxm
  · intro t ht
    obtain ⟨y, hy, hym⟩ := e3 t ht
    obtain ⟨x, hx, hxy⟩ := p3.mem_right hy
    obtain ⟨e, hee, rfl⟩ := List.mem_map.1 (show x ∈ (readList s' py"elements").map readTop from hx)
    refine ⟨e, hee, ?_⟩
    intro n hn
    rw [hxy, show (readTop e).name = some n from readStr_of hn] at hym
    exact hym
  · intro n n' hn hn'
    have h1 := namespace_eq hn
    have h2 := namespace_eq hn'
    rw [namespace_eq hns1] at h2
    injection h2 with h2
    subst h2
    unfold schemaVarOf at hv
    rw [h1] at hv
    have hv := Except.ok.inj hv
    rw [hns2, ← hv] at hMv
    exact List.append_cancel_left hMv

end

namespace Ex

def obj (fields : List (Str × Val)) : Val := .inst 0 fields none
def txt (s : Str) : Val := .atom (.str s)

/-- A part with an element. -/
def elementPart (name element : Str) : Val := obj [(py"name", txt name), (py"element", txt element)]

/-- A message with those parts. -/
def message (name : Str) (parts : List Val) : Val := obj [(py"name", txt name), (py"parts", .list true parts)]

def action (a : Val) : Val := obj [(py"soapAction", a), (py"style", Val.none)]

/-- A document with a port for FTP and one for SOAP, that has two operations named 'ping' and one with a header.
One text has a backslash in it, an operation lacks its action. -/
def pingDocument (headers : List Val) : Val := obj [
  (py"targetNamespace", txt py"urn:ping"),
  (py"types", obj [(py"schemas", .list true [obj [(py"targetNamespace", Val.none), (py"elements", .list true [
    obj [(py"name", txt py"Ping"), (py"type", txt py"xsd:string")],
    obj [(py"name", txt py"Token"), (py"type", txt py"xsd:string")]])]])]),
  (py"messages", .list true [message py"in" [elementPart py"p" py"tns:Ping"], message py"extra" [elementPart py"token" py"tns:Token"],
    message py"empty" []]),
  (py"portTypes", .list true [obj [(py"name", txt py"PT"), (py"operations", .list true [
    obj [(py"name", txt py"ping"), (py"input", obj [(py"message", txt py"tns:in")]),
      (py"output", obj [(py"message", txt py"tns:in")])],
    obj [(py"name", txt py"push"), (py"input", obj [(py"message", txt py"tns:in")]),
      (py"output", obj [(py"message", txt py"tns:empty")])]])]]),
  (py"bindings", .list true [
    obj [(py"name", txt py"Ftp"), (py"type", txt py"tns:PT"), (py"binding", obj [(py"transport", txt py"urn:ftp")])],
    obj [(py"name", txt py"Soap"), (py"type", txt py"tns:PT"), (py"binding", obj [(py"transport", txt nsSoapHttp)]),
      (py"operations", .list true [
        obj [(py"name", txt py"ping"), (py"operation", action (txt py"one"))],
        obj [(py"name", txt py"push"), (py"operation", action Val.none), (py"input", obj [(py"headers", .list true headers)])],
        obj [(py"name", txt py"ping"), (py"operation", action (txt py"a\\tb"))]])]]),
  (py"services", .list true [obj [(py"name", txt py"S"), (py"ports", .list true [
    obj [(py"name", txt py"F"), (py"binding", txt py"tns:Ftp"), (py"address", obj [(py"location", txt py"ftp://host/f")])],
    obj [(py"name", txt py"P"), (py"binding", txt py"tns:Soap"),
      (py"address", obj [(py"location", txt py"http://host/ping")])]])]])]

def tokenHeader : Val := obj [(py"message", txt py"tns:extra"), (py"part", txt py"token")]

def digest5 : Str → Str := fun _ => py"12345"

/-- The services and stubs of the client code for a document. -/
def clientOf (d : Val) : Option (List PortObj) :=
  (wsdlToPy digest5 (fun _ => true) [some py"xsd"] 1 false .soap11 d).toOption.bind fun m =>
    (execWsdl 3 m).toOption.map (·.2)

theorem clientOf_some {d : Val} {os : List PortObj} (h : clientOf d = some os) : ∃ m G,
    wsdlToPy digest5 (fun _ => true) [some py"xsd"] 1 false .soap11 d = .ok m ∧ execWsdl 3 m = .ok (G, os) := by
  unfold clientOf at h
  cases hm : wsdlToPy digest5 (fun _ => true) [some py"xsd"] 1 false .soap11 d with
  | error e => rw [hm] at h; cases h
  | ok m =>
    rw [hm] at h
    cases he : execWsdl 3 m with
    | error e => simp only [Except.toOption, Option.bind_some, he] at h; cases h
    | ok r =>
      simp only [Except.toOption, Option.bind_some, he] at h
      cases h
      exact ⟨m, r.1, rfl, he⟩

/-- The FTP port is left out, both 'ping' have the last action, and the missing one is 'None'. -/
example : (clientOf (pingDocument [tokenHeader])).map (·.map fun o => (o.service.name, o.service.methods.map fun k =>
    (k.operationName, k.soapAction, k.inputHeader.map (·.elements.length)))) =
    some [(py"P", [(py"ping", py"a\tb", none), (py"push", py"None", some 1), (py"ping", py"a\tb", none)])] := rfl

/-- The properties apply to it. -/
example : ∃ o ports schemas, clientOf (pingDocument [tokenHeader]) = some [o] ∧ PortsOf (pingDocument [tokenHeader]) ports ∧
    PortsFor (pingDocument [tokenHeader]) false .soap11 ports [o] ∧ SchemasOf (pingDocument [tokenHeader]) schemas ∧
    schemas.length = o.service.schemas.length := by
  obtain ⟨o, h⟩ : ∃ o, clientOf (pingDocument [tokenHeader]) = some [o] := ⟨_, rfl⟩
  obtain ⟨m, G, hm, he⟩ := clientOf_some h
  obtain ⟨ports, h1, h2⟩ := C92_services hm he
  obtain ⟨schemas, h3, h4⟩ := C92_schemas hm he
  exact ⟨o, ports, schemas, h, h1, h2, h3, (h4 o (List.mem_cons_self ..)).length⟩

/-- A server cannot be made if a message has no parts. -/
example : wsdlToPy digest5 (fun _ => true) [some py"xsd"] 1 true .soap11 (pingDocument []) = .error .valueError := rfl

end Ex

end Soapfish
