import Verif.WsdlTextProof
/-
Reading the text generated from WSDL documents: blocks, and what the templates take care of.
-/
namespace Soapfish

open PyLex

/-! ### Blocks -/

/-- Lines that may stand at the top level after whatever stood there. -/
def Blocks (ls : List (Nat × PyLine)) : Prop := ∀ o, Level o → ∀ rest, ∃ o', Level o' ∧ nested o false (ls ++ rest) = nested o' false rest

theorem blocks_nil : Blocks [] := fun o ho _ => ⟨o, ho, rfl⟩

theorem blocks_append {a b : List (Nat × PyLine)} (ha : Blocks a) (hb : Blocks b) : Blocks (a ++ b) := by
  intro o ho rest
  obtain ⟨o1, h1, h2⟩ := ha o ho (b ++ rest)
  obtain ⟨o2, h3, h4⟩ := hb o1 h1 rest
  exact ⟨o2, h3, by rw [List.append_assoc, h2, h4]⟩

theorem blocks_flatMap {α : Type} {f : α → List (Nat × PyLine)} : ∀ {l : List α}, (∀ a ∈ l, Blocks (f a)) → Blocks (l.flatMap f)
  | [], _ => blocks_nil
  | a :: l, h => by
    rw [List.flatMap_cons]
    exact blocks_append (h a (List.mem_cons_self ..)) (blocks_flatMap fun b hb => h b (List.mem_cons_of_mem _ hb))

theorem blocks_line {l : PyLine} (h : l.opens = false) : Blocks [(0, l)] := by
  intro o ho rest
  refine ⟨[0], .inl rfl, ?_⟩
  rcases ho with rfl | rfl | rfl
  all_goals
    show nested [0] l.opens rest = _
    rw [h]

theorem blocks_class {P : List (Nat × PyLine)} (hP : ∀ l ∈ P, l.1 = 4 ∧ l.2.opens = false) (hne : P ≠ []) (k : Str) (e : PyExpr) : Blocks ((0, .block k e) :: P) := by
  intro o ho rest
  have := nested_class hP hne ho k e none rest
  rw [show createLines none = [] from rfl, List.append_nil] at this
  exact this

theorem blocks_header (h : PyHeader) : Blocks h.lines := by
  refine blocks_class (fun l hl => ?_) (List.cons_ne_nil _ _) _ _
  rcases List.mem_cons.1 hl with rfl | hl
  · exact ⟨rfl, rfl⟩
  · obtain ⟨p, _, rfl⟩ := List.mem_map.1 hl
    exact ⟨rfl, rfl⟩

theorem blocks_method (m : PyMethod) : Blocks m.lines := blocks_append (blocks_flatMap fun h _ => blocks_header h) (blocks_line rfl)

theorem blocks_function (f : PyFunction) : Blocks f.lines :=
  blocks_class (fun l hl => by rw [List.mem_singleton.1 hl]; exact ⟨rfl, rfl⟩) (List.cons_ne_nil _ _) _ _

theorem nested_calls : ∀ (l : List (Str × Str)) (o : List Nat), o = [4, 0] ∨ o = [8, 4, 0] → ∀ rest, ∃ o', (o' = [4, 0] ∨ o' = [8, 4, 0]) ∧
    nested o false (l.flatMap callLines ++ rest) = nested o' false rest
  | [], o, ho, _ => ⟨o, ho, rfl⟩
  | c :: l, o, ho, rest => by
    obtain ⟨o', h1, h2⟩ := nested_calls l [8, 4, 0] (.inr rfl) rest
    refine ⟨o', h1, ?_⟩
    rw [List.flatMap_cons, List.append_assoc, ← h2]
    rcases ho with rfl | rfl <;> rfl

theorem blocks_stub (n : Str) (s : PyStub) : Blocks (stubLines n s) := by
  intro o ho rest
  obtain ⟨o', h1, h2⟩ := nested_calls s.calls [4, 0] (.inl rfl) rest
  refine ⟨o', h1.elim (fun h => .inr (.inl h)) (fun h => .inr (.inr h)), ?_⟩
  rw [← h2]
  rcases ho with rfl | rfl | rfl <;> rfl

theorem blocks_port (p : PyPort) : Blocks p.lines := by
  unfold PyPort.lines
  refine blocks_append ?_ (blocks_append (blocks_flatMap fun m _ => blocks_method m) (blocks_append (a := [p.line]) (blocks_line rfl) (blocks_flatMap fun s _ => blocks_stub _ s)))
  split
  · exact blocks_flatMap fun f _ => blocks_function f
  · exact blocks_nil

theorem blocks_module {os : List Opening} {m : PyModule} (h : m.Fits) (hr : m.Regular os) : Blocks (m.lines os) :=
  blocks_append (fun _ ho rest => nested_classes hr.classes h.classes ho rest) (blocks_line rfl)

theorem blocks_preamble (wsa : Bool) : Blocks (preambleLines wsa) := by
  cases wsa with
  | false => exact blocks_append (a := [_]) (blocks_line rfl) (blocks_line rfl)
  | true => exact blocks_append (a := [_]) (blocks_line rfl) (blocks_line rfl)

theorem nested_of_blocks {ls : List (Nat × PyLine)} (h : Blocks ls) : nested [0] false ls = true := by
  obtain ⟨o, h1, h2⟩ := h [0] (.inl rfl) []
  rw [List.append_nil] at h2
  rw [h2]
  rcases h1 with rfl | rfl | rfl <;> rfl

/-! ### The whole text -/

/-- More lines in front -/
def PyLex.after (a : List (Nat × List Tok)) (s : PyLex) : PyLex := { s with done := a ++ s.done }

theorem newline_after (a : List (Nat × List Tok)) (s : PyLex) : newline (s.after a) = (newline s).after a := by
  obtain ⟨done, i, T, d, mode⟩ := s
  cases d with
  | succ n => rfl
  | zero => cases T with
    | nil => rfl
    | cons t T =>
      show bol ((a ++ done) ++ [(i, t :: T)]) = bol (a ++ (done ++ [(i, t :: T)]))
      rw [List.append_assoc]

theorem ite_after {a : List (Nat × List Tok)} {p : Prop} [Decidable p] {x y x' y' : PyLex} (h1 : x = x'.after a) (h2 : y = y'.after a) :
    (if p then x else y) = (if p then x' else y').after a := by
  split
  · exact h1
  · exact h2

theorem begin_after (a : List (Nat × List Tok)) (s : PyLex) (c : Char) : begin (s.after a) c = (begin s c).after a := by
  obtain ⟨done, i, T, d, mode⟩ := s
  refine ite_after rfl (ite_after rfl (ite_after rfl (ite_after rfl (ite_after (newline_after a _) (ite_after rfl (ite_after rfl (ite_after rfl (ite_after rfl (ite_after ?_ (ite_after rfl rfl))))))))))
  cases d <;> rfl

theorem step_after (a : List (Nat × List Tok)) (s : PyLex) (c : Char) : step (s.after a) c = (step s c).after a := by
  obtain ⟨done, i, T, d, mode⟩ := s
  cases mode with
  | bol n =>
    show (if c = ' ' then _ else if c = '\n' then _ else if c = '#' then _ else begin (PyLex.after a ⟨done, n, T, d, .idle⟩) c) = PyLex.after a (if c = ' ' then _ else if c = '\n' then _ else if c = '#' then _ else begin ⟨done, n, T, d, .idle⟩ c)
    rw [begin_after]
    split
    · rfl
    split
    · rfl
    split <;> rfl
  | idle => exact begin_after a _ c
  | name acc =>
    show (if _ then _ else if _ then _ else begin (PyLex.after a (push ⟨done, i, T, d, .name acc⟩ (nameTok acc))) c) = PyLex.after a (if _ then _ else if _ then _ else begin (push ⟨done, i, T, d, .name acc⟩ (nameTok acc)) c)
    rw [begin_after]
    split
    · rfl
    split <;> rfl
  | num acc =>
    show (if _ then _ else if _ then begin (PyLex.after a (push ⟨done, i, T, d, .num acc⟩ (.num acc))) c else _) = PyLex.after a (if _ then _ else if _ then begin (push ⟨done, i, T, d, .num acc⟩ (.num acc)) c else _)
    rw [begin_after]
    split
    · rfl
    split <;> rfl
  | str raw q acc esc =>
    show (if _ then _ else if _ then _ else if _ then _ else if _ then _ else _) = PyLex.after a (if _ then _ else if _ then _ else if _ then _ else if _ then _ else _)
    split
    · rfl
    split
    · rfl
    split
    · rfl
    split
    · cases acc <;> rfl
    · rfl
  | shut q =>
    show (if _ then _ else begin (PyLex.after a ⟨done, i, T, d, .idle⟩) c) = PyLex.after a (if _ then _ else begin ⟨done, i, T, d, .idle⟩ c)
    rw [begin_after]
    split <;> rfl
  | comment =>
    show (if _ then newline (PyLex.after a ⟨done, i, T, d, .comment⟩) else if _ then _ else _) = PyLex.after a (if _ then newline ⟨done, i, T, d, .comment⟩ else if _ then _ else _)
    rw [newline_after]
    split
    · rfl
    split <;> rfl
  | minus =>
    show (if _ then _ else begin (PyLex.after a (push ⟨done, i, T, d, .minus⟩ (.op '-'))) c) = PyLex.after a (if _ then _ else begin (push ⟨done, i, T, d, .minus⟩ (.op '-')) c)
    rw [begin_after]
    split <;> rfl
  | dot =>
    show (if _ then _ else begin (PyLex.after a (push ⟨done, i, T, d, .dot⟩ (.op '.'))) c) = PyLex.after a (if _ then _ else begin (push ⟨done, i, T, d, .dot⟩ (.op '.')) c)
    rw [begin_after]
    split <;> rfl
  | bad => rfl

theorem run_after (a : List (Nat × List Tok)) : ∀ (t : Str) (s : PyLex), run (s.after a) t = (run s t).after a
  | [], _ => rfl
  | c :: t, s => by
    rw [run_cons, step_after, run_after a t, run_cons]

/-- A given text -/
theorem reads'_given {s : Str} {i : Nat} {ts : List Tok} {l : PyLine} (h1 : run (bol []) s = bol [(i, ts)]) (h2 : parseLine ts = some l) : Reads' s [(i, l)] := by
  refine reads'_one (fun done => ?_) h2
  have := run_after done s (bol [])
  rw [h1] at this
  have e : PyLex.after done (bol []) = bol done := by
    show bol (done ++ []) = _
    rw [List.append_nil]
  rw [e] at this
  exact this

/-- A text that begins on a new line may follow one that lacks the end of its last line. -/
theorem reads'_join {a b : Str} {la lb : List (Nat × PyLine)} (ha : Reads' (a ++ py"\n") la) (hb : Reads' (b ++ py"\n") lb) (hn : b = [] ∧ lb = [] ∨ ∃ r, b = '\n' :: r) :
    Reads' ((a ++ b) ++ py"\n") (la ++ lb) := by
  rcases hn with ⟨rfl, rfl⟩ | ⟨r, rfl⟩
  · rw [List.append_nil, List.append_nil]
    exact ha
  · have hr : Reads' (r ++ py"\n") lb := hb
    have := reads'_append ha hr
    simp only [List.append_assoc, List.cons_append, List.nil_append] at this ⊢
    exact this

theorem port_begins (regex : Str) (p : PyPort) : ∃ r, p.text regex = '\n' :: r := by
  unfold PyPort.text functionsText
  cases p.stub with
  | none => exact ⟨_, rfl⟩
  | some s => exact ⟨_, rfl⟩

theorem reads'_ports : ∀ {ps : List PyPort} {regexes : List Str}, (∀ p ∈ ps, p.Fits ∧ p.Regular) → (∀ x ∈ regexes, OneLine x) → regexes.length = ps.length →
    Reads' ((List.zipWith PyPort.text regexes ps).flatten ++ py"\n") (ps.flatMap PyPort.lines) ∧
      ((List.zipWith PyPort.text regexes ps).flatten = [] ∧ ps.flatMap PyPort.lines = [] ∨ ∃ r, (List.zipWith PyPort.text regexes ps).flatten = '\n' :: r)
  | [], [], _, _, _ => ⟨reads'_empty, .inl ⟨rfl, rfl⟩⟩
  | p :: ps, x :: xs, h, hx, hl => by
    obtain ⟨h1, h2⟩ := reads'_ports (ps := ps) (regexes := xs) (fun q hq => h q (List.mem_cons_of_mem _ hq)) (fun y hy => hx y (List.mem_cons_of_mem _ hy)) (Nat.succ.inj hl)
    obtain ⟨hf, hr⟩ := h p (List.mem_cons_self ..)
    rw [List.zipWith_cons_cons, List.flatten_cons, List.flatMap_cons]
    refine ⟨reads'_join (reads'_port hf hr (hx x (List.mem_cons_self ..))) h1 h2, .inr ?_⟩
    obtain ⟨r, hr⟩ := port_begins x p
    exact ⟨r ++ _, by rw [hr]; rfl⟩

theorem reads'_module {os : List Opening} {m : PyModule} (h : m.Fits) (hr : m.Regular os) : Reads' (m.text os) (m.lines os) := by
  have h1 := reads'_append (reads'_comment (quotable_chars h.schema.targetNamespace)) (reads'_append (reads'_classes hr.classes h.classes) (reads'_schema h.schema hr.var hr.imports hr.includes))
  simp only [List.append_assoc] at h1
  exact h1

theorem reads'_modules {oss : List (List Opening)} {ms : List PyModule} (h : All2 (fun os m => m.Regular os) oss ms) (hf : ∀ m ∈ ms, m.Fits) :
    Reads' (List.zipWith PyModule.text oss ms).flatten (List.zipWith PyModule.lines oss ms).flatten ∧ Blocks (List.zipWith PyModule.lines oss ms).flatten := by
  induction h with
  | nil => exact ⟨reads'_nil, blocks_nil⟩
  | @cons os m oss ms h1 _ ih =>
    obtain ⟨h2, h3⟩ := ih fun x hx => hf x (List.mem_cons_of_mem _ hx)
    have hm := hf m (List.mem_cons_self ..)
    exact ⟨reads'_append (reads'_module hm h1) h2, blocks_append (blocks_module hm h1) h3⟩

theorem reads'_preamble {wsa : Bool} {generated : Str} (h : OneLine generated) : Reads' (preambleText wsa generated) (preambleLines wsa) := by
  have h1 : Reads' py"# flake8:noqa\n" [] := reads'_remark (s := py" flake8:noqa") (oneLine_of rfl)
  have h2 : Reads' py"# isort:skip_file\n" [] := reads'_remark (s := py" isort:skip_file") (oneLine_of rfl)
  have h3 : Reads' ('#' :: ((py" Note: Generated by soapfish.wsdl2py at " ++ generated) ++ py"\n")) [] := reads'_remark ((oneLine_of rfl).append h)
  have h4 : Reads' py"#       Try to avoid editing it if you might need to regenerate it.\n" [] :=
    reads'_remark (s := py"       Try to avoid editing it if you might need to regenerate it.") (oneLine_of rfl)
  have h5 : Reads' (if wsa then py"\nfrom soapfish import soap, xsd, wsa\n\nBaseHeader = wsa.Header\n\n"
       else py"\nfrom soapfish import soap, xsd\n\nBaseHeader = xsd.ComplexType\n\n") (preambleLines wsa) := by
    cases wsa with
    | false =>
      have ha : Reads' py"\nfrom soapfish import soap, xsd\n\n" [(0, .imports [.name py"soapfish", .kw py"import", .name py"soap", .op ',', .name py"xsd"])] :=
        reads'_given (ts := [.kw py"from", .name py"soapfish", .kw py"import", .name py"soap", .op ',', .name py"xsd"]) (by decide +kernel) rfl
      have hb : Reads' py"BaseHeader = xsd.ComplexType\n\n" [(0, .assign (.name py"BaseHeader") (.xsd py"ComplexType"))] :=
        reads'_given (ts := [.name py"BaseHeader", .op '=', .name py"xsd", .op '.', .name py"ComplexType"]) (by decide +kernel) rfl
      have h := reads'_append ha hb
      exact h
    | true =>
      have ha : Reads' py"\nfrom soapfish import soap, xsd, wsa\n\n" [(0, .imports [.name py"soapfish", .kw py"import", .name py"soap", .op ',', .name py"xsd", .op ',', .name py"wsa"])] :=
        reads'_given (ts := [.kw py"from", .name py"soapfish", .kw py"import", .name py"soap", .op ',', .name py"xsd", .op ',', .name py"wsa"]) (by decide +kernel) rfl
      have hb : Reads' py"BaseHeader = wsa.Header\n\n" [(0, .assign (.name py"BaseHeader") (.attr (.name py"wsa") py"Header"))] :=
        reads'_given (ts := [.name py"BaseHeader", .op '=', .name py"wsa", .op '.', .name py"Header"]) (by decide +kernel) rfl
      have h := reads'_append ha hb
      exact h
  have := reads'_append h1 (reads'_append h2 (reads'_append reads'_banner (reads'_append h3 (reads'_append h4 (reads'_append reads'_banner h5)))))
  unfold preambleText
  simp only [List.append_assoc, List.cons_append, List.nil_append] at this ⊢
  exact this

theorem read_wsdl {m : PyWsdlModule} {wsa : Bool} {generated : Str} {oss : List (List Opening)} {regexes : List Str} (hf : m.Fits) (hg : OneLine generated)
    (h1 : All2 (fun os s => s.Regular os) oss m.schemas) (h2 : ∀ p ∈ m.ports, p.Regular) (h3 : ∀ x ∈ regexes, OneLine x) (h4 : regexes.length = m.ports.length) :
    readPython (m.text wsa generated oss regexes ++ py"\n") = some (m.lines wsa oss) := by
  obtain ⟨h5, h6⟩ := reads'_modules h1 hf.schemas
  obtain ⟨h7, _⟩ := reads'_ports (fun p hp => ⟨hf.ports p hp, h2 p hp⟩) h3 h4
  have h8 : Reads' py"# Schemas\n" [] := reads'_remark (s := py" Schemas") (oneLine_of rfl)
  refine read_of ?_ (nested_of_blocks (blocks_append (blocks_preamble wsa) (blocks_append h6 (blocks_flatMap fun p _ => blocks_port p))))
  have := reads'_append (reads'_preamble (wsa := wsa) hg) (reads'_append reads'_banner (reads'_append h8 (reads'_append reads'_empty (reads'_append h5 h7))))
  unfold PyWsdlModule.text
  simp only [List.append_assoc, List.cons_append, List.nil_append] at this ⊢
  exact this

end Soapfish
