import Verif.TextLines
/-
Reading generated text: classes, the schema, modules.
-/
namespace Soapfish

open PyLex

/-! ### The beginning of a class body -/

/-- What the templates write after `INHERITANCE =` -/
def Opening.Regular : Opening → Prop
  | .inheritance kind => kind = py"xsd.Inheritance.RESTRICTION" ∨ kind = py"xsd.Inheritance.EXTENSION" ∨ kind = py"None"
  | _ => True

/-- Lines with some tokens each -/
def Reads' (s : Str) (ls : List (Nat × PyLine)) : Prop := ∃ rs : List Read, Reads s rs ∧ rs.map (fun r => (r.1, r.2.2)) = ls

theorem reads'_nil : Reads' [] [] := ⟨[], reads_nil, rfl⟩

theorem reads'_append {a b : Str} {la lb} (ha : Reads' a la) (hb : Reads' b lb) : Reads' (a ++ b) (la ++ lb) := by
  obtain ⟨ra, h1, rfl⟩ := ha
  obtain ⟨rb, h2, rfl⟩ := hb
  exact ⟨ra ++ rb, reads_append h1 h2, List.map_append⟩

theorem reads'_map {α : Type} {f : α → Str} {g : α → Nat × PyLine} : ∀ {l : List α}, (∀ a ∈ l, Reads' (f a) [g a]) → Reads' (l.flatMap f) (l.map g)
  | [], _ => reads'_nil
  | a :: l, h => by
    rw [List.flatMap_cons, List.map_cons]
    exact reads'_append (h a (List.mem_cons_self ..)) (reads'_map fun b hb => h b (List.mem_cons_of_mem _ hb))

theorem reads'_one {s : Str} {i : Nat} {ts : List Tok} {l : PyLine} (h1 : ∀ done, run (bol done) s = bol (done ++ [(i, ts)])) (h2 : parseLine ts = some l) :
    Reads' s [(i, l)] := ⟨_, reads_one h1 h2, rfl⟩

/-- An assignment to a name -/
theorem parse_assign {n : Str} {ts : List Tok} {e : PyExpr} (h : Parse.run (some ⟨.top (some (.name n)) false, [], none, none, false⟩) ts = some ⟨.top (some (.name n)) false, [], none, some e, false⟩) :
    parseLine (.name n :: .op '=' :: ts) = some (.assign (.name n) e) := by
  show (match parseExpr (.name n :: .op '=' :: ts) with
    | some (some t, e, false) => some (PyLine.assign t e)
    | some (none, e, false) => some (.expr e)
    | _ => none) = _
  have h2 : parseExpr (.name n :: .op '=' :: ts) = some (some (.name n), e, false) := by
    unfold parseExpr
    show (match Parse.run (some ⟨.top (some (.name n)) false, [], none, none, false⟩) ts with
      | some p => match p.frame, p.outer, p.value with
        | .top target colon, [], some v => some (target, v, colon)
        | _, _, _ => none
      | none => none) = _
    rw [h]
    rfl
  rw [h2]

theorem reads'_opening {o : Opening} (h : o.Regular) : Reads' o.text o.lines := by
  cases o with
  | nothing => exact reads'_nil
  | pass => exact reads'_one (ts := [.kw py"pass"]) (fun done => rfl) rfl
  | inheritance kind =>
    rcases h with rfl | rfl | rfl
    · exact reads'_one (fun done => run_assign (n := py"INHERITANCE") (ident_of (by decide)) (spells_dotted (a := py"Inheritance") (b := py"RESTRICTION") (ident_of (by decide)) (ident_of (by decide))) done)
        (parse_assign rfl)
    · exact reads'_one (fun done => run_assign (n := py"INHERITANCE") (ident_of (by decide)) (spells_dotted (a := py"Inheritance") (b := py"EXTENSION") (ident_of (by decide)) (ident_of (by decide))) done)
        (parse_assign rfl)
    · exact reads'_one (fun done => run_assign (n := py"INHERITANCE") (v := py"None") (ident_of (by decide)) (spells_word (by decide) (by decide) rfl) done) (parse_assign rfl)

theorem spells_texts {l : List Str} (h : ∀ s ∈ l, Quotable '\'' s) :
    SpellsToks ('[' :: (commaSep (l.map quoted) ++ py"]")) (.op '[' :: (sepToks (l.map fun s => [.str false '\'' s]) ++ [.op ']'])) :=
  spells_argValue (a := .texts l) h

theorem reads'_enumeration {l : Option (List Str)} (h : ∀ x, l = some x → ∀ s ∈ x, Quotable '\'' s) : Reads' (enumerationText l) (enumerationLines l) := by
  cases l with
  | none => exact reads'_nil
  | some l =>
    refine reads'_one (ts := .name py"enumeration" :: .op '=' :: .op '[' :: (sepToks (l.map fun s => [.str false '\'' s]) ++ [.op ']'])) (fun done => ?_) ?_
    · rw [← run_assign (n := py"enumeration") (ident_of (by decide)) (spells_texts (h l rfl)) done]
      show run (bol done) (py"    enumeration = [" ++ (commaSep (l.map quoted) ++ py"]\n")) =
        run (bol done) (py"    enumeration = [" ++ ((commaSep (l.map quoted) ++ py"]") ++ py"\n"))
      rw [List.append_assoc]
      rfl
    · exact parse_assign (parse_texts l none (.top (some (.name py"enumeration")) false) [])

theorem reads'_facet {p : Str × Str} (h1 : Identifier p.1) (h2 : Quotable '\'' p.2) : Reads' (facetSource p) [facetLine p] := by
  refine reads'_one (ts := [.name p.1, .op '=', .str true '\'' p.2]) (fun done => ?_) (parse_assign rfl)
  exact run_assign h1 (spells_raw h2) done

theorem reads'_indicator (i : Option Indicator) : Reads' (indicatorText i) (indicatorLines i) := by
  cases i with
  | none => exact reads'_nil
  | some i =>
    cases i with
    | sequence => exact reads'_one (fun done => run_assign (n := py"INDICATOR") (ident_of (by decide)) (spells_xsd (n := py"Sequence") (ident_of (by decide))) done) (parse_assign rfl)
    | choice => exact reads'_one (fun done => run_assign (n := py"INDICATOR") (ident_of (by decide)) (spells_xsd (n := py"Choice") (ident_of (by decide))) done) (parse_assign rfl)
    | all => exact reads'_one (fun done => run_assign (n := py"INDICATOR") (ident_of (by decide)) (spells_xsd (n := py"All") (ident_of (by decide))) done) (parse_assign rfl)

/-! ### `create` -/

def paramToks (l : List Str) : List Tok := l.flatMap fun p => [.op ',', .name p]

theorem tail_params : ∀ {l : List Str}, (∀ s ∈ l, Identifier s) → Tail (l.flatMap fun p => py", " ++ p) (paramToks l)
  | [], _ => tail_nil
  | p :: l, h => by
    have h1 : Tail (py", " ++ p) [.op ',', .name p] := by
      refine ⟨?_, .inr ⟨',', _, rfl, rfl⟩⟩
      intro done i T d c rest hc
      rw [List.append_assoc]
      show run (mid done i (T ++ [.op ',']) d) (p ++ c :: rest) = _
      rw [run_ident (h p (List.mem_cons_self ..)), name_end (h p (List.mem_cons_self ..)).keyword hc, List.append_assoc]
      rfl
    exact tail_append h1 (tail_params fun s hs => h s (List.mem_cons_of_mem _ hs))

theorem parse_params : ∀ (l : List Str) (acc : Option PyExpr) (f : PyExpr) (args : List (Option Str × PyExpr)) (e : PyExpr) (fr : PyFrame) (outer : List PyFrame) (rest : List Tok),
    Parse.run (some ⟨.call acc f args none, fr :: outer, none, some e, false⟩) (paramToks l ++ .op ')' :: rest) =
      Parse.run (some ⟨fr, outer, acc, some (.call f (args ++ (none, e) :: l.map fun p => (none, .name p))), false⟩) rest
  | [], _, _, _, _, _, _, _ => rfl
  | p :: l, acc, f, args, e, fr, outer, rest => by
    show Parse.run (some ⟨.call acc f (args ++ [(none, e)]) none, fr :: outer, none, some (.name p), false⟩) (paramToks l ++ .op ')' :: rest) = _
    rw [parse_params l, List.append_assoc]
    rfl

theorem paramNames_names : ∀ l : List Str, paramNames (l.map fun p => (none, .name p)) = some l
  | [] => rfl
  | a :: l => by
    show (match some a, paramNames (l.map fun p => (none, .name p)) with
      | some n, some ns => some (n :: ns)
      | _, _ => none) = _
    rw [paramNames_names l]

theorem headOk_names {l : List Str} (h : l.Nodup) (kw : Str) : headOk kw (l.map fun p => (none, .name p)) = true := by
  unfold headOk
  split
  · rw [paramNames_names]
    exact decide_eq_true h
  · rfl

theorem reads'_params {l : List Str} (h : ∀ s ∈ l, Identifier s) (hd : (py"cls" :: l).Nodup) :
    Reads' (py"    def create(cls" ++ ((l.flatMap fun p => py", " ++ p) ++ py"):\n"))
      [(4, .block py"def" (.call (.name py"create") ((none, .name py"cls") :: l.map fun p => (none, .name p))))] := by
  refine reads'_one (ts := .kw py"def" :: .name py"create" :: .op '(' :: .name py"cls" :: (paramToks l ++ [.op ')', .op ':'])) (fun done => ?_) ?_
  · have h1 := spells_tail (a := py"cls") (spells_name (ident_of (by decide))) (tail_params h) done 4 [.kw py"def", .name py"create", .op '('] 1 ')' py":\n" rfl
    rw [List.append_assoc] at h1
    refine Eq.trans (b := run (mid done 4 [.kw py"def", .name py"create", .op '('] 1) (py"cls" ++ ((l.flatMap fun p => py", " ++ p) ++ py"):\n"))) rfl (h1.trans ?_)
    show bol (done ++ [(4, [.kw py"def", .name py"create", .op '('] ++ ([.name py"cls"] ++ paramToks l) ++ [.op ')'] ++ [.op ':'])]) = _
    simp only [List.append_assoc]
    rfl
  · have h1 := parse_params l none (.name py"create") [] (.name py"cls") (.top none false) [] [.op ':']
    show parseBlock py"def" _ = _
    unfold parseBlock
    have h2 : parseExpr (.name py"create" :: .op '(' :: .name py"cls" :: (paramToks l ++ [.op ')', .op ':'])) =
        some (none, .call (.name py"create") ((none, .name py"cls") :: l.map fun p => (none, .name p)), true) := by
      unfold parseExpr
      show (match Parse.run (some ⟨.call none (.name py"create") [] none, [.top none false], none, some (.name py"cls"), false⟩) (paramToks l ++ [.op ')', .op ':']) with
        | some p => match p.frame, p.outer, p.value with
          | .top target colon, [], some v => some (target, v, colon)
          | _, _, _ => none
        | none => none) = _
      rw [h1]
      rfl
    rw [h2]
    exact if_pos (headOk_names hd _)

theorem reads'_assign {p : Str} (h : Identifier p) : Reads' (assignText p) [(8, .assign (.attr (.name py"instance") p) (.name p))] := by
  refine reads'_one (ts := [.name py"instance", .op '.', .name p, .op '=', .name p]) (fun done => ?_) rfl
  show run ⟨done, 8, [.name py"instance"], 0, .dot⟩ (p ++ (py" = " ++ (p ++ py"\n"))) = _
  rw [run_ident_dot h]
  rw [show py" = " ++ (p ++ py"\n") = ' ' :: (py"= " ++ (p ++ py"\n")) from rfl, name_end h.keyword rfl]
  show run (mid done 8 [.name py"instance", .op '.', .name p, .op '='] 0) (p ++ '\n' :: []) = _
  rw [spells_name h _ _ _ _ _ _ rfl]
  rfl

theorem reads'_create {l : Option (List Str)} (h : ∀ x, l = some x → (∀ s ∈ x, Identifier s) ∧ (py"cls" :: x).Nodup) : Reads' (createText l) (createLines l) := by
  cases l with
  | none => exact reads'_nil
  | some l =>
    have h1 : Reads' py"\n    @classmethod\n" [(4, .decorator (.name py"classmethod"))] := reads'_one (ts := [.op '@', .name py"classmethod"]) (fun done => rfl) rfl
    have h2 := reads'_params (h l rfl).1 (h l rfl).2
    have h3 : Reads' py"        instance = cls()\n" [(8, .assign (.name py"instance") (.call (.name py"cls") []))] :=
      reads'_one (ts := [.name py"instance", .op '=', .name py"cls", .op '(', .op ')']) (fun done => rfl) rfl
    have h4 : Reads' (l.flatMap assignText) (l.map fun p => (8, .assign (.attr (.name py"instance") p) (.name p))) := reads'_map fun p hp => reads'_assign ((h l rfl).1 p hp)
    have h5 : Reads' py"        return instance\n" [(8, .ret (.name py"instance"))] := reads'_one (ts := [.kw py"return", .name py"instance"]) (fun done => rfl) rfl
    have := reads'_append h1 (reads'_append h2 (reads'_append h3 (reads'_append h4 h5)))
    have e : py"\n    @classmethod\n" ++ ((py"    def create(cls" ++ ((l.flatMap fun p => py", " ++ p) ++ py"):\n")) ++ (py"        instance = cls()\n" ++ (l.flatMap assignText ++ py"        return instance\n"))) = createText (some l) := by
      show _ = py"\n    @classmethod\n    def create(cls" ++ ((l.flatMap fun p => py", " ++ p) ++ (py"):\n        instance = cls()\n" ++ (l.flatMap assignText ++ py"        return instance\n")))
      simp only [List.append_assoc, List.cons_append, List.nil_append]
    rw [e] at this
    exact this

/-! ### Classes -/

/-- What the templates take care of themselves. -/
structure PyClassDef.Regular (o : Opening) (c : PyClassDef) : Prop where
  opening : o.Regular
  facets : ∀ p ∈ c.facets, Identifier p.1
  fields : ∀ f ∈ c.fields, f.Regular
  body : c.hasBody = true → o ≠ .nothing ∨ c.enumeration ≠ none ∨ c.facets ≠ [] ∨ c.fields ≠ []

theorem reads'_header {n : Str} {r : PyRef} (hn : Identifier n) (hr : r.Fits) :
    Reads' (py"class " ++ (n ++ (py"(" ++ (r.text ++ py"):\n")))) [(0, .block py"class" (.call (.name n) [(none, r.expr)]))] := by
  refine reads'_one (ts := .kw py"class" :: .name n :: .op '(' :: (r.toks ++ [.op ')', .op ':'])) (fun done => ?_) ?_
  · show run (mid done 0 [.kw py"class"] 0) (n ++ '(' :: (r.text ++ py"):\n")) = _
    rw [spells_name hn _ _ _ _ _ _ rfl]
    show run (mid done 0 [.kw py"class", .name n, .op '('] 1) (r.text ++ ')' :: py":\n") = _
    rw [spells_ref hr _ _ _ _ _ _ rfl]
    show bol (done ++ [(0, [.kw py"class", .name n, .op '('] ++ r.toks ++ [.op ')'] ++ [.op ':'])]) = _
    simp only [List.append_assoc]
    rfl
  · cases r <;> rfl

theorem reads'_blank : Reads' py"\n\n" [] := ⟨[], ⟨fun done => by rw [List.map_nil, List.append_nil]; rfl, fun _ h => nomatch h⟩, rfl⟩

theorem reads'_class {o : Opening} {c : PyClassDef} (h : c.Fits) (hr : c.Regular o) : Reads' (c.text o) (c.lines o) := by
  have h1 := reads'_header h.name h.base
  have h2 : Reads' (c.facets.flatMap facetSource) (c.facets.map facetLine) := reads'_map fun p hp => reads'_facet (hr.facets p hp) (h.facets p hp)
  have h3 : Reads' (c.fields.flatMap PyField.text) (c.fields.map PyField.line) := reads'_map fun f hf => ⟨_, reads_field (h.fields f hf) (hr.fields f hf), rfl⟩
  have := reads'_append h1 (reads'_append (reads'_opening hr.opening) (reads'_append (reads'_enumeration h.enumeration) (reads'_append h2 (reads'_append (reads'_indicator c.indicator)
    (reads'_append h3 (reads'_append (reads'_create h.create) reads'_blank))))))
  rw [List.append_nil] at this
  simp only [List.append_assoc] at this
  exact this

/-! ### The schema -/

def namesToks (key : Str) (l : List Str) : List Tok := .name key :: .op '=' :: .op '[' :: (sepToks (l.map fun s => [.name s]) ++ [.op ']', .op ','])

theorem run_keyNames {key : Str} {l : List Str} (hk : Identifier key) (h : ∀ s ∈ l, Identifier s) (done i T d rest) :
    run (mid done i T (d + 1)) (py"    " ++ (key ++ (py"=[" ++ (namesText l ++ rest)))) = run (mid done i (T ++ namesToks key l) (d + 1)) rest := by
  show run (mid done i T (d + 1)) (key ++ ('=' :: '[' :: (namesText l ++ rest))) = _
  rw [spells_name hk _ _ _ _ _ _ rfl]
  show run (mid done i (T ++ [.name key] ++ [.op '='] ++ [.op '[']) (d + 2)) ((commaSep l ++ py"],\n") ++ rest) = _
  rw [show (commaSep l ++ py"],\n") ++ rest = commaSep l ++ ']' :: (py",\n" ++ rest) from List.append_assoc ..]
  have h1 := spells_commaSep (f := fun s => s) (fun s hs => spells_name (h s hs)) done i (T ++ [.name key] ++ [.op '='] ++ [.op '[']) (d + 2) ']' (py",\n" ++ rest) rfl
  rw [List.map_id'] at h1
  refine Eq.trans h1 ?_
  show run (mid done i (T ++ [.name key] ++ [.op '='] ++ [.op '['] ++ sepToks (l.map fun s => [.name s]) ++ [.op ']'] ++ [.op ',']) (d + 1)) rest = _
  simp only [List.append_assoc]
  rfl

def textToks (key s : Str) : List Tok := [.name key, .op '=', .str false '\'' s, .op ',']

theorem run_keyText {key s : Str} (hk : Identifier key) (h : Quotable '\'' s) (done i T d rest) :
    run (mid done i T (d + 1)) (py"    " ++ (key ++ ('=' :: (quoted s ++ (py",\n" ++ rest))))) = run (mid done i (T ++ textToks key s) (d + 1)) rest := by
  show run (mid done i T (d + 1)) (key ++ ('=' :: (quoted s ++ (py",\n" ++ rest)))) = _
  rw [spells_name hk _ _ _ _ _ _ rfl]
  show run (mid done i (T ++ [.name key] ++ [.op '=']) (d + 1)) (quoted s ++ ',' :: (py"\n" ++ rest)) = _
  rw [spells_quoted h _ _ _ _ _ _ rfl]
  show run (mid done i (T ++ [.name key] ++ [.op '='] ++ [.str false '\'' s] ++ [.op ',']) (d + 1)) rest = _
  simp only [List.append_assoc]
  rfl

def PyTop.typeToks : PyRef ⊕ Str → List Tok
  | .inl r => r.toks
  | .inr n => [.name n, .op '(', .op ')']

def PyTop.groupToks : Option Str → List Tok
  | some g => [.op ',', .name py"substitutionGroup", .op '=', .str false '"' g]
  | none => []

def PyTop.toks (t : PyTop) : List Tok :=
  .str false '\'' t.name :: .op ':' :: .name py"xsd" :: .op '.' :: .name py"Element" :: .op '(' :: (PyTop.typeToks t.type ++ (PyTop.groupToks t.substitutionGroup ++ [.op ')']))

theorem spells_entry {name tt gt : Str} {ttoks gtoks : List Tok} (hn : Quotable '\'' name) (h1 : SpellsToks tt ttoks) (h2 : Tail gt gtoks) :
    SpellsToks (quoted name ++ (py": xsd.Element(" ++ (tt ++ (gt ++ py")")))) (.str false '\'' name :: .op ':' :: .name py"xsd" :: .op '.' :: .name py"Element" :: .op '(' :: (ttoks ++ (gtoks ++ [.op ')']))) := by
  intro done i T d c rest hc
  rw [List.append_assoc]
  show run (mid done i T d) (quoted name ++ ':' :: (py" xsd.Element(" ++ ((tt ++ (gt ++ py")")) ++ c :: rest))) = _
  rw [spells_quoted hn _ _ _ _ _ _ rfl]
  show run (mid done i (T ++ [.str false '\'' name] ++ [.op ':'] ++ [.name py"xsd"] ++ [.op '.'] ++ [.name py"Element"] ++ [.op '(']) (d + 1)) ((tt ++ (gt ++ py")")) ++ c :: rest) = _
  rw [show (tt ++ (gt ++ py")")) ++ c :: rest = (tt ++ gt) ++ ')' :: c :: rest by simp only [List.append_assoc]; rfl, spells_tail h1 h2 _ _ _ _ _ _ rfl]
  show run (mid done i (T ++ [.str false '\'' name] ++ [.op ':'] ++ [.name py"xsd"] ++ [.op '.'] ++ [.name py"Element"] ++ [.op '('] ++ (ttoks ++ gtoks) ++ [.op ')']) d) (c :: rest) = _
  simp only [List.append_assoc]
  rfl

theorem tail_group {g : Str} (h : Quotable '"' g) : Tail (py", substitutionGroup=\"" ++ (g ++ py"\"")) (PyTop.groupToks (some g)) :=
  tail_key (key := py"substitutionGroup") (ident_of (by decide)) (spells_double h)

theorem spells_called {n : Str} (h : Identifier n) : SpellsToks (n ++ py"()") [.name n, .op '(', .op ')'] := by
  refine spells_tail (spells_name h) ⟨?_, .inr ⟨'(', _, rfl, rfl⟩⟩
  intro done i T d c rest hc
  show run (mid done i (T ++ [.op '('] ++ [.op ')']) d) (c :: rest) = _
  rw [List.append_assoc]
  rfl

theorem spells_top {t : PyTop} (h : t.Fits) : SpellsToks t.text t.toks := by
  obtain ⟨name, type, group⟩ := t
  have ht := h.type
  cases type with
  | inl r =>
    cases group with
    | none => exact spells_entry h.name (spells_ref ht) tail_nil
    | some g => exact spells_entry h.name (spells_ref ht) (tail_group (h.group g rfl))
  | inr n =>
    cases group with
    | none => exact spells_entry h.name (spells_called ht) tail_nil
    | some g => exact spells_entry h.name (spells_called ht) (tail_group (h.group g rfl))

theorem parse_keyNames (key : Str) (l : List Str) (acc : Option PyExpr) (f : PyExpr) (args : List (Option Str × PyExpr)) (outer : List PyFrame) :
    Parse.run (some ⟨.call acc f args none, outer, none, none, false⟩) (namesToks key l) = some ⟨.call acc f (args ++ [namesArg key l]) none, outer, none, none, false⟩ := by
  show Parse.run (some ⟨.list none [], .call acc f args (some key) :: outer, none, none, false⟩) (sepToks (l.map fun s => [.name s]) ++ ([.op ']'] ++ [.op ','])) = _
  rw [← List.append_assoc, parse_append, parse_names]
  rfl

theorem parse_keyText (key s : Str) (acc : Option PyExpr) (f : PyExpr) (args : List (Option Str × PyExpr)) (outer : List PyFrame) :
    Parse.run (some ⟨.call acc f args none, outer, none, none, false⟩) (textToks key s) = some ⟨.call acc f (args ++ [(some key, .text s)]) none, outer, none, none, false⟩ := rfl

theorem parse_top (t : PyTop) (acc : Option PyExpr) (items : List (PyExpr × PyExpr)) (outer : List PyFrame) :
    Parse.run (some ⟨.dict acc items none, outer, none, none, false⟩) t.toks = some ⟨.dict acc items (some t.entry.1), outer, none, some t.entry.2, false⟩ := by
  obtain ⟨name, type, group⟩ := t
  cases type with
  | inl r => cases r <;> cases group <;> rfl
  | inr n => cases group <;> rfl

theorem parse_tops : ∀ (l : List PyTop) (acc : Option PyExpr) (items : List (PyExpr × PyExpr)) (fr : PyFrame) (outer : List PyFrame),
    Parse.run (some ⟨.dict acc items none, fr :: outer, none, none, false⟩) (sepToks (l.map PyTop.toks) ++ [.op '}']) =
      some ⟨fr, outer, acc, some (.dict (items ++ l.map PyTop.entry)), false⟩
  | [], acc, items, fr, outer => by
    rw [show items ++ List.map PyTop.entry [] = items from List.append_nil _]
    rfl
  | [t], acc, items, fr, outer => by
    show Parse.run _ (t.toks ++ [.op '}']) = _
    rw [parse_append, parse_top]
    rfl
  | t :: u :: l, acc, items, fr, outer => by
    show Parse.run _ ((t.toks ++ (.op ',' :: sepToks ((u :: l).map PyTop.toks))) ++ [.op '}']) = _
    rw [List.append_assoc, parse_append, parse_top]
    show Parse.run (some ⟨.dict acc (items ++ [t.entry]) none, fr :: outer, none, none, false⟩) (sepToks ((u :: l).map PyTop.toks) ++ [.op '}']) = _
    rw [parse_tops (u :: l), List.append_assoc]
    rfl

def PySchema.toks (s : PySchema) : List Tok :=
  namesToks py"imports" s.imports ++ (namesToks py"includes" s.includes ++ (textToks py"targetNamespace" s.targetNamespace ++ (textToks py"elementFormDefault" s.elementFormDefault ++
    (namesToks py"simpleTypes" s.simpleTypes ++ (namesToks py"attributeGroups" s.attributeGroups ++ (namesToks py"groups" s.groups ++ (namesToks py"complexTypes" s.complexTypes ++
      (.name py"elements" :: .op '=' :: .op '{' :: (sepToks (s.elements.map PyTop.toks) ++ [.op '}', .op ','])))))))))

theorem args_schema (s : PySchema) : Args s.toks [namesArg py"imports" s.imports, namesArg py"includes" s.includes,
    (some py"targetNamespace", .text s.targetNamespace), (some py"elementFormDefault", .text s.elementFormDefault),
    namesArg py"simpleTypes" s.simpleTypes, namesArg py"attributeGroups" s.attributeGroups, namesArg py"groups" s.groups,
    namesArg py"complexTypes" s.complexTypes, (some py"elements", .dict (s.elements.map PyTop.entry))] := by
  intro acc f fr outer
  unfold PySchema.toks
  simp only [List.append_assoc]
  rw [parse_append, parse_keyNames, parse_append, parse_keyNames, parse_append, parse_keyText, parse_append, parse_keyText, parse_append, parse_keyNames, parse_append, parse_keyNames,
    parse_append, parse_keyNames, parse_append, parse_keyNames]
  have key : ∀ args, Parse.run (some ⟨.dict none [] none, .call acc f args (some py"elements") :: fr :: outer, none, none, false⟩) ((sepToks (s.elements.map PyTop.toks) ++ [.op '}', .op ',']) ++ [.op ')']) =
      some ⟨fr, outer, acc, some (.call f (args ++ [(some py"elements", .dict (s.elements.map PyTop.entry))])), false⟩ := fun args => by
    have h := parse_tops s.elements none [] (.call acc f args (some py"elements")) (fr :: outer)
    rw [show (sepToks (s.elements.map PyTop.toks) ++ [.op '}', .op ',']) ++ [.op ')'] = (sepToks (s.elements.map PyTop.toks) ++ [.op '}']) ++ [.op ',', .op ')'] by simp only [List.append_assoc, List.cons_append, List.nil_append],
      parse_append, h]
    rfl
  show Parse.run (some ⟨.dict none [] none, .call acc f _ (some py"elements") :: fr :: outer, none, none, false⟩) ((sepToks (s.elements.map PyTop.toks) ++ [.op '}', .op ',']) ++ [.op ')']) = _
  exact key _

theorem reads'_schema {s : PySchema} (h : s.Fits) (hv : Identifier s.var) (hi : ∀ n ∈ s.imports, Identifier n) (hc : ∀ n ∈ s.includes, Identifier n) : Reads' s.text [s.line] := by
  refine reads'_one (ts := .name s.var :: .op '=' :: .name py"xsd" :: .op '.' :: .name py"Schema" :: .op '(' :: (s.toks ++ [.op ')'])) (fun done => ?_) (parse_call (args_schema s))
  unfold PySchema.text
  show run (bol done) (s.var ++ ' ' :: (py"= xsd.Schema(\n    imports=[" ++ _)) = _
  rw [show run (bol done) = run ⟨done, 0, [], 0, .bol 0⟩ from rfl, run_ident_bol hv, name_end hv.keyword rfl]
  show run (mid done 0 [.name s.var, .op '=', .name py"xsd", .op '.', .name py"Schema", .op '('] 1) (py"    " ++ (py"imports" ++ (py"=[" ++ (namesText s.imports ++
    (py"    " ++ (py"includes" ++ (py"=[" ++ (namesText s.includes ++ (py"    " ++ (py"targetNamespace" ++ ('=' :: (quoted s.targetNamespace ++ (py",\n" ++
      (py"    " ++ (py"elementFormDefault" ++ ('=' :: (quoted s.elementFormDefault ++ (py",\n" ++ (py"    " ++ (py"simpleTypes" ++ (py"=[" ++ (namesText s.simpleTypes ++
        (py"    " ++ (py"attributeGroups" ++ (py"=[" ++ (namesText s.attributeGroups ++ (py"    " ++ (py"groups" ++ (py"=[" ++ (namesText s.groups ++
          (py"    " ++ (py"complexTypes" ++ (py"=[" ++ (namesText s.complexTypes ++ (py"    elements={" ++ (commaSep (s.elements.map PyTop.text) ++ '}' :: py",\n)\n\n")))))))))))))))))))))))))))))))))))) = _
  rw [run_keyNames (ident_of (by decide)) hi, run_keyNames (ident_of (by decide)) hc, run_keyText (ident_of (by decide)) h.targetNamespace, run_keyText (ident_of (by decide)) h.elementFormDefault,
    run_keyNames (ident_of (by decide)) h.simpleTypes, run_keyNames (ident_of (by decide)) h.attributeGroups, run_keyNames (ident_of (by decide)) h.groups,
    run_keyNames (ident_of (by decide)) h.complexTypes]
  generalize hT : ([.name s.var, .op '=', .name py"xsd", .op '.', .name py"Schema", .op '('] ++ namesToks py"imports" s.imports ++ namesToks py"includes" s.includes ++
    textToks py"targetNamespace" s.targetNamespace ++ textToks py"elementFormDefault" s.elementFormDefault ++ namesToks py"simpleTypes" s.simpleTypes ++
    namesToks py"attributeGroups" s.attributeGroups ++ namesToks py"groups" s.groups ++ namesToks py"complexTypes" s.complexTypes : List Tok) = T
  show run (mid done 0 (T ++ [.name py"elements"] ++ [.op '='] ++ [.op '{']) 2) (commaSep (s.elements.map PyTop.text) ++ '}' :: py",\n)\n\n") = _
  rw [spells_commaSep (fun t ht => spells_top (h.elements t ht)) _ _ _ _ _ _ rfl]
  have hend : ∀ t ts, run (mid done 0 (t :: ts) 2) ('}' :: py",\n)\n\n") = bol (done ++ [(0, t :: ts ++ [.op '}'] ++ [.op ','] ++ [.op ')'])]) := fun _ _ => rfl
  subst hT
  simp only [List.append_assoc, List.cons_append]
  rw [hend]
  unfold PySchema.toks
  simp only [List.append_assoc, List.cons_append, List.nil_append]

end Soapfish
