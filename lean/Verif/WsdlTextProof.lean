import Verif.WsdlTextLemmas
/-
Reading the text generated from WSDL documents: ports and the whole module.
-/
namespace Soapfish

open PyLex

/-! ### Functions -/

/-- Tokens of arguments, ended by a parenthesis -/
theorem reads'_def {i : Nat} {n s : Str} {args} {ts : List Tok} (hi : i = 0 ∨ i = 4) (hn : Identifier n) (h1 : SpellsToks s ts) (h2 : ArgToks ts args) (h3 : headOk py"def" args = true) :
    Reads' (List.replicate i ' ' ++ (py"def " ++ (n ++ (py"(" ++ (s ++ py"):\n"))))) [(i, .block py"def" (.call (.name n) args))] := by
  refine reads'_one (ts := .kw py"def" :: .name n :: .op '(' :: (ts ++ [.op ')', .op ':'])) (fun done => ?_) ?_
  · have hb : run (bol done) (List.replicate i ' ' ++ (py"def " ++ (n ++ (py"(" ++ (s ++ py"):\n"))))) = run (mid done i [.kw py"def"] 0) (n ++ '(' :: (s ++ py"):\n")) := by
      rcases hi with rfl | rfl <;> rfl
    rw [hb, spells_name hn _ _ _ _ _ _ rfl]
    show run (mid done i [.kw py"def", .name n, .op '('] 1) (s ++ ')' :: py":\n") = _
    rw [h1 _ _ _ _ _ _ rfl]
    show bol (done ++ [(i, [.kw py"def", .name n, .op '('] ++ ts ++ [.op ')'] ++ [.op ':'])]) = _
    simp only [List.append_assoc]
    rfl
  · show parseBlock py"def" _ = _
    unfold parseBlock
    have h4 : parseExpr (.name n :: .op '(' :: (ts ++ [.op ')', .op ':'])) = some (none, .call (.name n) args, true) := by
      unfold parseExpr
      show (match Parse.run (some ⟨.call none (.name n) [] none, [.top none false], none, none, false⟩) (ts ++ [.op ')', .op ':']) with
        | some p => match p.frame, p.outer, p.value with
          | .top target colon, [], some v => some (target, v, colon)
          | _, _, _ => none
        | none => none) = _
      rw [h2]
      rfl
    rw [h4]
    exact if_pos h3

/-- `return …` -/
theorem reads'_return {i : Nat} {s : Str} {e : PyExpr} (hi : i = 4 ∨ i = 8) (h : Reading s e) : Reads' (List.replicate i ' ' ++ (py"return " ++ (s ++ py"\n"))) [(i, .ret e)] := by
  obtain ⟨ts, h1, h2⟩ := h
  have hne : ts ≠ [] := by
    rintro rfl
    have := h2 (.top none false) [] none [] (by intro t h; cases h)
    cases this
  refine reads'_one (ts := .kw py"return" :: ts) (fun done => ?_) ?_
  · have hb : run (bol done) (List.replicate i ' ' ++ (py"return " ++ (s ++ py"\n"))) = run (mid done i [.kw py"return"] 0) (s ++ '\n' :: []) := by
      rcases hi with rfl | rfl <;> rfl
    rw [hb, h1 _ _ _ _ _ _ rfl]
    rfl
  · have h3 : parseExpr ts = some (none, e, false) := by
      unfold parseExpr
      have := h2 (.top none false) [] none [] (by intro t h; cases h)
      rw [List.append_nil] at this
      rw [this]
      rfl
    cases ts with
    | nil => exact absurd rfl hne
    | cons t ts =>
      show (match parseExpr (t :: ts) with
        | some (none, e, false) => some (PyLine.ret e)
        | _ => none) = _
      rw [h3]

/-- Two arguments -/
theorem args_two {a b : Str} (ha : Identifier a) (hb : Identifier b) :
    SpellsToks (a ++ (',' :: ' ' :: b)) [.name a, .op ',', .name b] ∧ ArgToks [.name a, .op ',', .name b] [(none, .name a), (none, .name b)] := by
  refine ⟨?_, fun acc f l fr outer rest => ?_⟩
  · intro done i T d c rest hc
    rw [show (a ++ (',' :: ' ' :: b)) ++ c :: rest = a ++ ',' :: (' ' :: (b ++ c :: rest)) by simp only [List.append_assoc, List.cons_append], spells_name ha _ _ _ _ _ _ rfl]
    show run (mid done i (T ++ [.name a] ++ [.op ',']) d) (b ++ c :: rest) = _
    rw [spells_name hb _ _ _ _ _ _ hc]
    simp only [List.append_assoc, List.cons_append, List.nil_append]
  · show Parse.run (some ⟨fr, outer, acc, some (.call f (l ++ [(none, .name a)] ++ [(none, .name b)])), false⟩) rest = _
    rw [List.append_assoc]
    rfl

theorem oneLine_of {s : Str} (h : s.all (fun c => c ≠ '\n' && c ≠ '\r' && c ≠ Char.ofNat 0) = true) : OneLine s := by
  intro c hc
  have := List.all_eq_true.1 h c hc
  simpa [and_assoc] using this

theorem reads'_function {f : PyFunction} (h : f.Fits) : Reads' f.text f.lines := by
  obtain ⟨h1, h2⟩ := args_two (a := py"request") (ident_of rfl) h.parameter
  have h3 : headOk py"def" [(none, .name py"request"), (none, .name f.parameter)] = true :=
    headOk_names (l := [py"request", f.parameter]) (List.nodup_cons.2 ⟨fun hm => h.request (List.mem_singleton.1 hm).symm, List.nodup_cons.2 ⟨(fun h => nomatch h), List.nodup_nil⟩⟩) _
  have h4 := reads'_def (.inl rfl) h.name h1 h2 h3
  have h5 : Reads' (py"    #" ++ (py" TODO: Put your implementation here." ++ py"\n")) [] := by
    refine ⟨[], ⟨fun done => ?_, (fun _ h => nomatch h)⟩, rfl⟩
    rw [List.map_nil, List.append_nil, run_append, show run (bol done) py"    #" = ⟨done, 0, [], 0, .comment⟩ from rfl, run_comment (oneLine_of rfl)]
    rfl
  have h6 := reads'_return (.inl rfl) (reading_name h.result)
  have := reads'_append reads'_blank (reads'_append h4 (reads'_append h5 (reads'_append h6 reads'_empty)))
  have e : f.text = py"\n\n" ++ ((List.replicate 0 ' ' ++ (py"def " ++ (f.name ++ (py"(" ++ ((py"request" ++ (',' :: ' ' :: f.parameter)) ++ py"):\n"))))) ++
      ((py"    #" ++ (py" TODO: Put your implementation here." ++ py"\n")) ++ ((List.replicate 4 ' ' ++ (py"return " ++ (f.result ++ py"\n"))) ++ py"\n"))) := by
    unfold PyFunction.text
    simp only [List.append_assoc, List.cons_append, List.nil_append, List.replicate]
  rw [e]
  exact this

/-! ### The stub -/

theorem args_call {p : Str} (hp : Identifier p) :
    SpellsToks (py"self" ++ (',' :: ' ' :: (p ++ py", header=None"))) [.name py"self", .op ',', .name p, .op ',', .name py"header", .op '=', .kw py"None"] ∧
    ArgToks [.name py"self", .op ',', .name p, .op ',', .name py"header", .op '=', .kw py"None"] [(none, .name py"self"), (none, .name p), (some py"header", .const py"None")] := by
  refine ⟨?_, fun acc f l fr outer rest => ?_⟩
  · have h1 := spells_tail (args_two (a := py"self") (ident_of rfl) hp).1 (tail_key (key := py"header") (v := py"None") (ident_of rfl) (spells_word (by decide) (by decide) rfl))
    rw [show (py"self" ++ (',' :: ' ' :: p)) ++ (py", " ++ (py"header" ++ ('=' :: py"None"))) = py"self" ++ (',' :: ' ' :: (p ++ py", header=None")) by simp only [List.append_assoc, List.cons_append]; rfl] at h1
    exact h1
  · show Parse.run (some ⟨fr, outer, acc, some (.call f (l ++ [(none, .name py"self")] ++ [(none, .name p)] ++ [(some py"header", .const py"None")])), false⟩) rest = _
    simp only [List.append_assoc]
    rfl

/-- A call of what is written -/
theorem reading_apply {s t : Str} {e : PyExpr} {ta : List Tok} {args} (h : Written s e) (h1 : SpellsToks t ta) (h2 : ArgToks ta args) :
    Reading (s ++ ('(' :: (t ++ [')']))) (.call e args) := by
  obtain ⟨ts, h3, _, h4⟩ := written_reads h
  refine ⟨ts ++ .op '(' :: (ta ++ [.op ')']), fun done i T d c rest _ => spells_call h3 h1 .., ?_⟩
  intro frame outer acc rest hf
  rw [List.append_assoc, h4 _ _ _ _ hf]
  show Parse.run (some ⟨frame, outer, acc, some e, false⟩) (.op '(' :: ((ta ++ [.op ')']) ++ rest)) = _
  rw [call_step hf, List.append_assoc]
  exact h2 acc e [] frame outer rest

theorem reading_call {n p : Str} (hn : Identifier n) (hp : Identifier p) : Reading (py"self.call(" ++ (quoted n ++ (py", " ++ (p ++ py", header=header)"))))
    (.call (.attr (.name py"self") py"call") [(none, .text n), (none, .name p), (some py"header", .name py"header")]) := by
  have ha := spells_tail (spells_quoted (quotable_ident hn)) (tail_append (tail_params (l := [p]) fun s hs => by rw [List.mem_singleton.1 hs]; exact hp)
    (tail_key (key := py"header") (v := py"header") (ident_of rfl) (spells_name (ident_of rfl))))
  have := reading_apply (.attr (s := py"self") (n := py"call") (.name (ident_of rfl)) (fun _ h => nomatch h) (ident_of rfl)) ha (args := [(none, .text n), (none, .name p), (some py"header", .name py"header")])
    (fun acc f l fr outer rest => by
      show Parse.run (some ⟨fr, outer, acc, some (.call f (l ++ [(none, .text n)] ++ [(none, .name p)] ++ [(some py"header", .name py"header")])), false⟩) rest = _
      simp only [List.append_assoc]
      rfl)
  simp only [List.flatMap_cons, List.flatMap_nil, List.append_assoc, List.cons_append, List.nil_append, List.append_nil] at this ⊢
  exact this

theorem reads'_call {c : Str × Str} (h : Identifier c.1 ∧ Identifier c.2 ∧ c.2 ≠ py"self" ∧ c.2 ≠ py"header") : Reads' (callText c) (callLines c) := by
  obtain ⟨h1, h2, h3, h4⟩ := h
  obtain ⟨h5, h6⟩ := args_call h2
  have h7 : headOk py"def" [(none, .name py"self"), (none, .name c.2), (some py"header", .const py"None")] = true := by
    show decide [py"self", c.2, py"header"].Nodup = true
    refine decide_eq_true (List.nodup_cons.2 ⟨fun hm => ?_, List.nodup_cons.2 ⟨fun hm => h4 (List.mem_singleton.1 hm), List.nodup_cons.2 ⟨(fun h => nomatch h), List.nodup_nil⟩⟩⟩)
    rcases List.mem_cons.1 hm with hm | hm
    · exact h3 hm.symm
    · exact absurd (List.mem_singleton.1 hm) (by decide)
  have := reads'_append reads'_empty (reads'_append (reads'_def (.inr rfl) h1 h5 h6 h7) (reads'_return (.inr rfl) (reading_call h1 h2)))
  have e : callText c = py"\n" ++ ((List.replicate 4 ' ' ++ (py"def " ++ (c.1 ++ (py"(" ++ ((py"self" ++ (',' :: ' ' :: (c.2 ++ py", header=None"))) ++ py"):\n"))))) ++
      (List.replicate 8 ' ' ++ (py"return " ++ ((py"self.call(" ++ (quoted c.1 ++ (py", " ++ (c.2 ++ py", header=header)")))) ++ py"\n")))) := by
    unfold callText
    simp only [List.append_assoc, List.cons_append, List.nil_append, List.replicate]
  rw [e]
  exact this

theorem reads'_stubClass {n : Str} (hn : Identifier n) :
    Reads' (py"class " ++ (n ++ (py"(soap.Stub):\n"))) [(0, .block py"class" (.call (.name n) [(none, .soap py"Stub")]))] := by
  refine reads'_one (ts := .kw py"class" :: .name n :: .op '(' :: .name py"soap" :: .op '.' :: .name py"Stub" :: [.op ')', .op ':']) (fun done => ?_) rfl
  show run (mid done 0 [.kw py"class"] 0) (n ++ '(' :: py"soap.Stub):\n") = _
  rw [spells_name hn _ _ _ _ _ _ rfl]
  rfl

theorem reads'_stub {n : Str} {s : PyStub} (hn : Identifier n) (h : s.Fits) : Reads' (stubText n s) (stubLines n s) := by
  have h1 : Reads' py"# SOAP Service Stub\n" [] := reads'_remark (s := py" SOAP Service Stub") (oneLine_of rfl)
  have h2 := reads'_bodyAssign (n := py"SERVICE") (ident_of rfl) (reading_name (ident_service hn))
  have h3 := reads'_bodyAssign (n := py"SCHEME") (ident_of rfl) (reading_text h.scheme)
  have h4 := reads'_bodyAssign (n := py"HOST") (ident_of rfl) (reading_text h.host)
  have h5 := reads'_flatMap fun c hc => reads'_call (h.calls c hc)
  have := reads'_append reads'_empty (reads'_append reads'_banner (reads'_append h1 (reads'_append reads'_blank (reads'_append (reads'_stubClass (ident_stub hn))
    (reads'_append h2 (reads'_append h3 (reads'_append h4 h5)))))))
  unfold stubText
  simp only [List.append_assoc, List.cons_append, List.nil_append] at this ⊢
  exact this

/-! ### Ports -/

theorem OneLine.append {a b : Str} (ha : OneLine a) (hb : OneLine b) : OneLine (a ++ b) := fun c hc => by
  rcases List.mem_append.1 hc with h | h
  · exact ha c h
  · exact hb c h

theorem oneLine_ident {n : Str} (h : Identifier n) : OneLine n := quotable_chars (quotable_ident h)

set_option maxRecDepth 4000 in
theorem reads'_dispatch {n regex : Str} (hn : Identifier n) (hr : OneLine regex) : Reads' (dispatchText n regex ++ py"\n") [] := by
  have h1 : Reads' py"# NOTE: Uncomment the following lines to turn on dispatching for Django:\n" [] :=
    reads'_remark (s := py" NOTE: Uncomment the following lines to turn on dispatching for Django:") (oneLine_of rfl)
  have h2 : Reads' py"# from soapfish.django_ import django_dispatcher\n" [] := reads'_remark (s := py" from soapfish.django_ import django_dispatcher") (oneLine_of rfl)
  have h3 : Reads' ('#' :: ((py" dispatcher = django_dispatcher(" ++ (n ++ py"_SERVICE)")) ++ py"\n")) [] :=
    reads'_remark ((oneLine_of rfl).append ((oneLine_ident hn).append (oneLine_of rfl)))
  have h4 : Reads' py"# NOTE: Put these lines in the urls.py for your project or application:\n" [] :=
    reads'_remark (s := py" NOTE: Put these lines in the urls.py for your project or application:") (oneLine_of rfl)
  have h5 : Reads' py"# urlpatterns += patterns('',\n" [] := reads'_remark (s := py" urlpatterns += patterns('',") (oneLine_of rfl)
  have h6 : Reads' ('#' :: ((py"     (r'" ++ (regex ++ py"', '<module>.dispatcher'),")) ++ py"\n")) [] :=
    reads'_remark ((oneLine_of rfl).append (hr.append (oneLine_of rfl)))
  have h7 : Reads' py"# )\n" [] := reads'_remark (s := py" )") (oneLine_of rfl)
  have := reads'_append reads'_empty (reads'_append reads'_banner (reads'_append reads'_blank (reads'_append h1 (reads'_append h2 (reads'_append h3 (reads'_append reads'_blank
    (reads'_append h4 (reads'_append h5 (reads'_append h6 h7)))))))))
  have e : dispatchText n regex ++ py"\n" = py"\n" ++ (banner ++ (py"\n\n" ++ (py"# NOTE: Uncomment the following lines to turn on dispatching for Django:\n" ++
      (py"# from soapfish.django_ import django_dispatcher\n" ++ (('#' :: ((py" dispatcher = django_dispatcher(" ++ (n ++ py"_SERVICE)")) ++ py"\n")) ++ (py"\n\n" ++
        (py"# NOTE: Put these lines in the urls.py for your project or application:\n" ++ (py"# urlpatterns += patterns('',\n" ++
          (('#' :: ((py"     (r'" ++ (regex ++ py"', '<module>.dispatcher'),")) ++ py"\n")) ++ py"# )\n"))))))))) := by
    unfold dispatchText
    simp only [List.append_assoc, List.cons_append, List.nil_append]
  rw [e]
  exact this

/-- What the templates take care of themselves. -/
structure PyPort.Regular (p : PyPort) : Prop where
  methods : ∀ m ∈ p.methods, m.Regular
  schemas : ∀ n ∈ p.schemas, Identifier n

theorem reading_version (v : Version) : Reading (versionText v) v.expr := by
  cases v with
  | soap11 => exact (Written.attr (s := py"soap.SOAPVersion") (n := py"SOAP11") (.attr (s := py"soap") (n := py"SOAPVersion") (.name (ident_of rfl)) (fun _ h => nomatch h) (ident_of rfl)) (fun _ h => nomatch h) (ident_of rfl)).reading
  | soap12 => exact (Written.attr (s := py"soap.SOAPVersion") (n := py"SOAP12") (.attr (s := py"soap") (n := py"SOAPVersion") (.name (ident_of rfl)) (fun _ h => nomatch h) (ident_of rfl)) (fun _ h => nomatch h) (ident_of rfl)).reading

theorem reads'_service {p : PyPort} (h : p.Fits) (hr : p.Regular) : Reads' (p.name ++ (py"_SERVICE = soap.Service(" ++ (p.argsText ++ py"\n)\n\n"))) [p.line] := by
  have hm : Reading (py"[" ++ (commaSep (p.methods.map fun m => m.name ++ py"_method") ++ py"]")) (.list (p.methods.map fun m => .name (m.name ++ py"_method"))) := by
    have := reading_names (l := p.methods.map fun m => m.name ++ py"_method") (by
      intro s hs
      obtain ⟨m, hm, rfl⟩ := List.mem_map.1 hs
      exact ident_method (h.methods m hm).name)
    rw [List.map_map] at this
    exact this
  have hargs : KeyArgs p.argsText _ := (keyArgs_key (k := py"name") (ident_of rfl) (reading_text (quotable_ident h.name))).append
    ((keyArgs_key (k := py"targetNamespace") (ident_of rfl) (reading_text h.targetNamespace)).append ((keyArgs_key (k := py"location") (ident_of rfl) (reading_text h.location)).append
      ((keyArgs_key (k := py"schemas") (ident_of rfl) (reading_names hr.schemas)).append ((keyArgs_key (k := py"version") (ident_of rfl) (reading_version p.version)).append
        (keyArgs_key (k := py"methods") (ident_of rfl) hm)))))
  have := reads'_keyCall (m := py"soap") (F := py"Service") (ident_service h.name) (ident_of rfl) (ident_of rfl) hargs
  simp only [List.append_assoc, List.cons_append, List.nil_append] at this ⊢
  exact this

theorem reads'_functions {p : PyPort} (h : p.Fits) : Reads' (functionsText p) (if p.stub = none then p.functions.flatMap PyFunction.lines else []) := by
  unfold functionsText
  cases hs : p.stub with
  | some s => exact reads'_nil
  | none =>
    have h1 : Reads' py"# Operations\n" [] := reads'_remark (s := py" Operations") (oneLine_of rfl)
    exact reads'_append reads'_empty (reads'_append reads'_banner (reads'_append h1 (reads'_flatMap fun f hf => reads'_function (h.functions f hf))))

theorem reads'_port {p : PyPort} {regex : Str} (h : p.Fits) (hr : p.Regular) (hx : OneLine regex) : Reads' (p.text regex ++ py"\n") p.lines := by
  have h1 : Reads' py"# Methods\n" [] := reads'_remark (s := py" Methods") (oneLine_of rfl)
  have h2 : Reads' py"# SOAP Service\n" [] := reads'_remark (s := py" SOAP Service") (oneLine_of rfl)
  have h3 := reads'_flatMap fun m hm => reads'_method (h.methods m hm) (hr.methods m hm)
  have h4 : Reads' ((match p.stub with
        | some s => stubText p.name s
        | none => dispatchText p.name regex) ++ py"\n") (p.stub.toList.flatMap (stubLines p.name)) := by
    cases hs : p.stub with
    | none => exact reads'_dispatch h.name hx
    | some s =>
      have := reads'_append (reads'_stub h.name (h.stub s hs)) reads'_empty
      exact this
  have := reads'_append (reads'_functions h) (reads'_append (reads'_append reads'_empty (reads'_append reads'_banner (reads'_append h1 reads'_empty))) (reads'_append h3
    (reads'_append (reads'_append reads'_empty (reads'_append reads'_banner (reads'_append h2 reads'_blank))) (reads'_append (reads'_service h hr) h4))))
  unfold PyPort.text PyPort.lines
  simp only [List.append_assoc, List.cons_append, List.nil_append] at this ⊢
  exact this

end Soapfish
