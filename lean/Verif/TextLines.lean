import Verif.TextLemmas
/-
Reading generated text: lines and expressions.
-/
namespace Soapfish

open PyLex

/-! ### Texts that go on -/

/-- A text that is empty or begins with a separator. -/
structure Tail (s : Str) (ts : List Tok) : Prop where
  spells : SpellsToks s ts
  begins : s = [] ∨ ∃ c r, s = c :: r ∧ isSep c = true

theorem spells_tail {a b : Str} {ta tb : List Tok} (ha : SpellsToks a ta) (hb : Tail b tb) : SpellsToks (a ++ b) (ta ++ tb) := by
  intro done i T d c rest hc
  have hb' := hb.spells done i (T ++ ta) d c rest hc
  rw [List.append_assoc, ← List.append_assoc T, ← hb']
  rcases hb.begins with rfl | ⟨x, r, rfl, hx⟩
  · exact ha _ _ _ _ _ _ hc
  · exact ha _ _ _ _ _ _ hx

theorem tail_nil : Tail [] [] := ⟨spells_nil, .inl rfl⟩

theorem tail_append {a b : Str} {ta tb : List Tok} (ha : Tail a ta) (hb : Tail b tb) : Tail (a ++ b) (ta ++ tb) := by
  refine ⟨spells_tail ha.spells hb, ?_⟩
  rcases ha.begins with rfl | ⟨x, r, rfl, hx⟩
  · exact hb.begins
  · exact .inr ⟨x, r ++ b, rfl, hx⟩

/-- `, key=…` -/
theorem tail_key {key v : Str} {tv : List Tok} (hk : Identifier key) (hv : SpellsToks v tv) : Tail (py", " ++ (key ++ ('=' :: v))) (.op ',' :: .name key :: .op '=' :: tv) := by
  refine ⟨?_, .inr ⟨',', _, rfl, rfl⟩⟩
  intro done i T d c rest hc
  rw [List.append_assoc, List.append_assoc]
  show run (mid done i (T ++ [.op ',']) d) (key ++ ('=' :: (v ++ c :: rest))) = _
  rw [run_ident hk, name_end hk.keyword rfl]
  show run (mid done i (T ++ [.op ','] ++ [.name key] ++ [.op '=']) d) (v ++ c :: rest) = _
  rw [hv _ _ _ _ _ _ hc]
  simp only [List.append_assoc]
  rfl

theorem ident_of {s : Str} (h : isIdent s = true) : Identifier s := by
  cases s with
  | nil => cases h
  | cons c cs =>
    simp only [isIdent, Bool.and_eq_true, List.all_eq_true, Bool.or_eq_true, Bool.not_eq_true', decide_eq_false_iff_not] at h
    refine ⟨fun d hd => ?_, ⟨c, cs, rfl, h.1.1⟩, h.2⟩
    rcases List.mem_cons.1 hd with rfl | hd
    · exact .inl h.1.1
    · exact h.1.2 d hd

theorem spells_word {w : Str} {t : Tok} (h1 : isLetterC (w.headD ' ') = true) (h2 : ∀ c ∈ w, isLetterC c = true ∨ isDigitC c = true) (h3 : nameTok w = t) : SpellsToks w [t] := by
  intro done i T d c rest hc
  cases w with
  | nil => exact absurd h1 (by decide)
  | cons a as =>
    rw [List.cons_append, run_cons, show step (mid done i T d) a = ⟨done, i, T, d, .name [a]⟩ from begin_letter h1 _, name_chars fun x hx => h2 x (List.mem_cons_of_mem _ hx)]
    subst h3
    show run ⟨done, i, T, d, .name (a :: as)⟩ (c :: rest) = _
    rcases sep_cases hc with rfl | rfl | rfl | rfl | rfl | rfl | rfl | rfl | rfl | rfl | rfl | rfl <;> rfl

def tagToks : Option Str → List Tok
  | some s => [.op ',', .name py"tagname", .op '=', .str false '\'' s]
  | none => []
def minToks : Option Int → List Tok
  | some n => [.op ',', .name py"minOccurs", .op '=', .num (intStr n)]
  | none => []
def nillableToks : Bool → List Tok
  | true => [.op ',', .name py"nillable", .op '=', .kw py"True"]
  | false => []
def boundToks : Bound → List Tok
  | .unbounded => [.name py"xsd", .op '.', .name py"UNBOUNDED"]
  | .int n => [.num (intStr n)]

theorem tail_tag {t : Option Str} (h : ∀ s, t = some s → Quotable '\'' s) : Tail (tagText t) (tagToks t) := by
  cases t with
  | none => exact tail_nil
  | some s => exact tail_key (key := py"tagname") (ident_of (by decide)) (spells_quoted (h s rfl))

theorem tail_min (m : Option Int) : Tail (minText m) (minToks m) := by
  cases m with
  | none => exact tail_nil
  | some s => exact tail_key (key := py"minOccurs") (ident_of (by decide)) (spells_numeral (intStr_numeral s))

theorem tail_nillable (b : Bool) : Tail (nillableText b) (nillableToks b) := by
  cases b with
  | false => exact tail_nil
  | true => exact tail_key (key := py"nillable") (v := py"True") (ident_of (by decide)) (spells_word (by decide) (by decide) rfl)

theorem spells_bound (b : Bound) : SpellsToks (boundSource b) (boundToks b) := by
  cases b with
  | unbounded => exact spells_xsd (n := py"UNBOUNDED") (ident_of (by decide))
  | int n => exact spells_numeral (intStr_numeral n)

/-! ### Lines -/

/-- A line `name = xsd.Something(…)` in a class body -/
theorem run_call {n F args : Str} {ta : List Tok} (hn : Identifier n) (hF : Identifier F) (ha : SpellsToks args ta) (done : List (Nat × List Tok)) :
    run (bol done) (py"    " ++ (n ++ (py" = xsd." ++ (F ++ ('(' :: (args ++ py")\n")))))) =
      bol (done ++ [(4, .name n :: .op '=' :: .name py"xsd" :: .op '.' :: .name F :: .op '(' :: (ta ++ [.op ')']))]) := by
  show run ⟨done, 0, [], 0, .bol 4⟩ (n ++ (py" = xsd." ++ (F ++ ('(' :: (args ++ py")\n"))))) = _
  rw [run_ident_bol hn]
  rw [show py" = xsd." ++ (F ++ ('(' :: (args ++ py")\n"))) = ' ' :: (py"= xsd." ++ (F ++ ('(' :: (args ++ py")\n")))) from rfl, name_end hn.keyword rfl]
  show run ⟨done, 4, [.name n, .op '=', .name py"xsd"], 0, .dot⟩ (F ++ ('(' :: (args ++ py")\n"))) = _
  rw [run_ident_dot hF, name_end hF.keyword rfl]
  show run (mid done 4 [.name n, .op '=', .name py"xsd", .op '.', .name F, .op '('] 1) (args ++ ')' :: py"\n") = _
  rw [ha _ _ _ _ _ _ rfl]
  rfl

/-- A line `name = …` in a class body -/
theorem run_assign {n v : Str} {tv : List Tok} (hn : Identifier n) (hv : SpellsToks v tv) (done : List (Nat × List Tok)) :
    run (bol done) (py"    " ++ (n ++ (py" = " ++ (v ++ py"\n")))) = bol (done ++ [(4, .name n :: .op '=' :: tv)]) := by
  show run ⟨done, 0, [], 0, .bol 4⟩ (n ++ (py" = " ++ (v ++ py"\n"))) = _
  rw [run_ident_bol hn]
  rw [show py" = " ++ (v ++ py"\n") = ' ' :: (py"= " ++ (v ++ py"\n")) from rfl, name_end hn.keyword rfl]
  show run (mid done 4 [.name n, .op '='] 0) (v ++ '\n' :: []) = _
  rw [hv _ _ _ _ _ _ rfl]
  rfl

/-- Tokens of a line with the line it is read as -/
abbrev Read := Nat × List Tok × PyLine

/-- The text is read as these lines. -/
def Reads (s : Str) (ls : List Read) : Prop :=
  (∀ done, run (bol done) s = bol (done ++ ls.map fun l => (l.1, l.2.1))) ∧ ∀ l ∈ ls, parseLine l.2.1 = some l.2.2

theorem reads_nil : Reads [] [] := ⟨fun done => by rw [List.map_nil, List.append_nil]; rfl, fun _ h => nomatch h⟩

theorem reads_append {a b : Str} {la lb : List Read} (ha : Reads a la) (hb : Reads b lb) : Reads (a ++ b) (la ++ lb) := by
  refine ⟨fun done => ?_, fun l hl => ?_⟩
  · rw [run_append, ha.1, hb.1, List.map_append, List.append_assoc]
  · rcases List.mem_append.1 hl with h | h
    · exact ha.2 l h
    · exact hb.2 l h

theorem reads_flatMap {α : Type} {f : α → Str} {g : α → List Read} : ∀ {l : List α}, (∀ a ∈ l, Reads (f a) (g a)) → Reads (l.flatMap f) (l.flatMap g)
  | [], _ => reads_nil
  | a :: l, h => by
    rw [List.flatMap_cons, List.flatMap_cons]
    exact reads_append (h a (List.mem_cons_self ..)) (reads_flatMap fun b hb => h b (List.mem_cons_of_mem _ hb))

theorem reads_one {s : Str} {i : Nat} {ts : List Tok} {l : PyLine} (h1 : ∀ done, run (bol done) s = bol (done ++ [(i, ts)])) (h2 : parseLine ts = some l) :
    Reads s [(i, ts, l)] :=
  ⟨h1, fun x hx => by cases List.mem_singleton.1 hx; exact h2⟩

/-! ### Expressions -/

theorem parse_append : ∀ (p : Option Parse) (a b : List Tok), Parse.run p (a ++ b) = Parse.run (Parse.run p a) b
  | p, [], b => by cases p <;> rfl
  | none, _ :: a, b => by cases b <;> rfl
  | some p, t :: a, b => parse_append (p.step t) a b

/-- The tokens are the arguments of a call. -/
def Args (ts : List Tok) (args : List (Option Str × PyExpr)) : Prop :=
  ∀ acc f fr outer, Parse.run (some ⟨.call acc f [] none, fr :: outer, none, none, false⟩) (ts ++ [.op ')']) = some ⟨fr, outer, acc, some (.call f args), false⟩

theorem parse_call {n F : Str} {ta : List Tok} {args : List (Option Str × PyExpr)} (h : Args ta args) :
    parseLine (.name n :: .op '=' :: .name py"xsd" :: .op '.' :: .name F :: .op '(' :: (ta ++ [.op ')'])) = some (.assign (.name n) (.call (.xsd F) args)) := by
  have h1 := h none (.xsd F) (.top (some (.name n)) false) []
  show (match parseExpr (.name n :: .op '=' :: .name py"xsd" :: .op '.' :: .name F :: .op '(' :: (ta ++ [.op ')'])) with
    | some (some t, e, false) => some (PyLine.assign t e)
    | some (none, e, false) => some (.expr e)
    | _ => none) = _
  have h2 : parseExpr (.name n :: .op '=' :: .name py"xsd" :: .op '.' :: .name F :: .op '(' :: (ta ++ [.op ')'])) = some (some (.name n), .call (.xsd F) args, false) := by
    unfold parseExpr
    show (match Parse.run (some ⟨.call none (.xsd F) [] none, [.top (some (.name n)) false], none, none, false⟩) (ta ++ [.op ')']) with
      | some p => match p.frame, p.outer, p.value with
        | .top target colon, [], some v => some (target, v, colon)
        | _, _, _ => none
      | none => none) = _
    rw [h1]
    rfl
  rw [h2]

/-- The single tokens of a list -/
theorem parse_list {α : Type} {tok : α → Tok} {e : α → PyExpr}
    (h : ∀ a frame outer acc, (∀ t, frame ≠ .top t true) → Parse.step ⟨frame, outer, acc, none, false⟩ (tok a) = some ⟨frame, outer, acc, some (e a), false⟩) :
    ∀ (l : List α) (items : List PyExpr) acc fr outer, Parse.run (some ⟨.list acc items, fr :: outer, none, none, false⟩) (sepToks (l.map fun a => [tok a]) ++ [.op ']']) =
      some ⟨fr, outer, acc, some (.list (items ++ l.map e)), false⟩
  | [], items, acc, fr, outer => by
    rw [show items ++ List.map e [] = items from List.append_nil _]
    rfl
  | [a], items, acc, fr, outer => by
    show Parse.run (Parse.step _ (tok a)) [.op ']'] = _
    rw [h a _ _ _ (fun t h => by cases h)]
    rfl
  | a :: b :: l, items, acc, fr, outer => by
    show Parse.run (Parse.step _ (tok a)) (.op ',' :: (sepToks ((b :: l).map fun a => [tok a]) ++ [.op ']'])) = _
    rw [h a _ _ _ (fun t h => by cases h)]
    show Parse.run (some ⟨.list acc (items ++ [e a]), fr :: outer, none, none, false⟩) (sepToks ((b :: l).map fun a => [tok a]) ++ [.op ']']) = _
    rw [parse_list h (b :: l), List.append_assoc]
    rfl

theorem operand_step {frame outer acc e} (h : ∀ t, frame ≠ .top t true) : Parse.operand ⟨frame, outer, acc, none, false⟩ e = some ⟨frame, outer, acc, some e, false⟩ := by
  cases frame with
  | top t b => cases b with
    | true => exact absurd rfl (h t)
    | false => rfl
  | _ => rfl

/-- A name or a text as an item of a list -/
theorem parse_texts (l : List Str) (acc fr outer) : Parse.run (some ⟨.list acc [], fr :: outer, none, none, false⟩) (sepToks (l.map fun s => [.str false '\'' s]) ++ [.op ']']) =
    some ⟨fr, outer, acc, some (.list (l.map .text)), false⟩ := by
  have := parse_list (tok := fun s => .str false '\'' s) (e := .text) (fun a frame outer acc h => operand_step h) l [] acc fr outer
  simpa using this

theorem parse_names (l : List Str) (acc fr outer) : Parse.run (some ⟨.list acc [], fr :: outer, none, none, false⟩) (sepToks (l.map fun s => [.name s]) ++ [.op ']']) =
    some ⟨fr, outer, acc, some (.list (l.map .name)), false⟩ := by
  have := parse_list (tok := fun s => .name s) (e := .name) (fun a frame outer acc h => operand_step h) l [] acc fr outer
  simpa using this

/-! ### Fields -/

def useToks (use : Str) : List Tok :=
  if use = py"xsd.Use.REQUIRED" then [.name py"xsd", .op '.', .name py"Use", .op '.', .name py"REQUIRED"]
  else if use = py"xsd.Use.PROHIBITED" then [.name py"xsd", .op '.', .name py"Use", .op '.', .name py"PROHIBITED"]
  else [.name py"xsd", .op '.', .name py"Use", .op '.', .name py"OPTIONAL"]

/-- One of the three texts for `use` -/
def IsUse (s : Str) : Prop := s = py"xsd.Use.REQUIRED" ∨ s = py"xsd.Use.PROHIBITED" ∨ s = py"xsd.Use.OPTIONAL"

theorem spells_dotted {a b : Str} (ha : Identifier a) (hb : Identifier b) :
    SpellsToks (py"xsd." ++ (a ++ ('.' :: b))) [.name py"xsd", .op '.', .name a, .op '.', .name b] := by
  intro done i T d c rest hc
  rw [List.append_assoc, List.append_assoc]
  show run ⟨done, i, T ++ [.name py"xsd"], d, .dot⟩ (a ++ ('.' :: (b ++ c :: rest))) = _
  rw [run_ident_dot ha]
  rw [show run ⟨done, i, T ++ [.name py"xsd"] ++ [.op '.'], d, .name a⟩ ('.' :: (b ++ c :: rest)) =
    run ⟨done, i, T ++ [.name py"xsd"] ++ [.op '.'] ++ [nameTok a], d, .dot⟩ (b ++ c :: rest) from rfl, nameTok_ident ha, run_ident_dot hb, name_end hb.keyword hc]
  simp only [List.append_assoc]
  rfl

theorem spells_use {u : Str} (h : IsUse u) : SpellsToks u (useToks u) := by
  rcases h with rfl | rfl | rfl
  · exact spells_dotted (a := py"Use") (b := py"REQUIRED") (ident_of (by decide)) (ident_of (by decide))
  · exact spells_dotted (a := py"Use") (b := py"PROHIBITED") (ident_of (by decide)) (ident_of (by decide))
  · exact spells_dotted (a := py"Use") (b := py"OPTIONAL") (ident_of (by decide)) (ident_of (by decide))

def argValueToks : PyArg → List Tok
  | .texts l => .op '[' :: (sepToks (l.map fun s => [.str false '\'' s]) ++ [.op ']'])
  | .rawText s => [.str true '\'' s]
  | .text s => [.str false '\'' s]
  | .expr s => match s with
    | c :: _ => if isLetterC c then [nameTok s] else [.num s]
    | [] => [.num s]

def argToks (p : Str × PyArg) : List Tok := .name p.1 :: .op '=' :: (argValueToks p.2 ++ [.op ','])

def argValueText : PyArg → Str
  | .texts l => '[' :: (commaSep (l.map quoted) ++ py"]")
  | .rawText s => 'r' :: quoted s
  | .text s => quoted s
  | .expr s => s

theorem numeral_first {s : Str} (h : Numeral s) : ∃ c r, s = c :: r ∧ isLetterC c = false := by
  have hs : NumShape s := by
    rcases h with h | ⟨r, rfl, h⟩
    · exact (unsigned_shape h).1
    · exact (unsigned_shape h).2.1
  cases hs with
  | digits h1 h2 => exact ⟨_, _, rfl, (digit_not h1).1⟩
  | point h1 h2 => exact ⟨_, _, rfl, by decide⟩
  | minus h1 h2 => exact ⟨_, _, rfl, by decide⟩

theorem spells_argValue {a : PyArg} (h : a.Fits) : SpellsToks (argValueText a) (argValueToks a) := by
  cases a with
  | texts l =>
    intro done i T d c rest hc
    show run (mid done i (T ++ [.op '[']) (d + 1)) ((commaSep (l.map quoted) ++ py"]") ++ c :: rest) = _
    rw [List.append_assoc]
    show run (mid done i (T ++ [.op '[']) (d + 1)) (commaSep (l.map quoted) ++ ']' :: c :: rest) = _
    rw [spells_commaSep (fun s hs => spells_quoted (h s hs)) _ _ _ _ _ _ rfl]
    show run (mid done i (T ++ [.op '['] ++ sepToks (l.map fun s => [.str false '\'' s]) ++ [.op ']']) d) (c :: rest) = _
    simp only [List.append_assoc]
    rfl
  | rawText s => exact spells_raw h
  | text s => exact spells_quoted h
  | expr s =>
    rcases h with h | rfl | rfl | rfl | h
    · obtain ⟨c, cs, rfl, hc⟩ := h.first
      show SpellsToks (c :: cs) (if isLetterC c then _ else _)
      rw [if_pos hc, nameTok_ident h]
      exact spells_name h
    · exact spells_word (by decide) (by decide) rfl
    · exact spells_word (by decide) (by decide) rfl
    · exact spells_word (by decide) (by decide) rfl
    · obtain ⟨c, r, rfl, hc⟩ := numeral_first h
      show SpellsToks (c :: r) (if isLetterC c then _ else _)
      rw [if_neg (by rw [hc]; decide)]
      exact spells_numeral h

theorem argText_eq (p : Str × PyArg) : argText p = p.1 ++ ('=' :: (argValueText p.2 ++ py",")) := by
  obtain ⟨k, v⟩ := p
  cases v <;> rfl

/-- Arguments, each with its comma -/
theorem run_args : ∀ {args : List (Str × PyArg)}, (∀ p ∈ args, Identifier p.1 ∧ p.2.Fits) → ∀ done i T d rest,
    run (mid done i T d) (args.flatMap argText ++ rest) = run (mid done i (T ++ args.flatMap argToks) d) rest
  | [], _, done, i, T, d, rest => by
    rw [List.flatMap_nil, List.flatMap_nil, List.append_nil]
    rfl
  | p :: args, h, done, i, T, d, rest => by
    obtain ⟨h1, h2⟩ := h p (List.mem_cons_self ..)
    rw [List.flatMap_cons, List.flatMap_cons, argText_eq, List.append_assoc, List.append_assoc]
    show run (mid done i T d) (p.1 ++ ('=' :: ((argValueText p.2 ++ py",") ++ (args.flatMap argText ++ rest)))) = _
    rw [run_ident h1, name_end h1.keyword rfl, List.append_assoc]
    show run (mid done i (T ++ [.name p.1] ++ [.op '=']) d) (argValueText p.2 ++ (',' :: (args.flatMap argText ++ rest))) = _
    rw [spells_argValue h2 _ _ _ _ _ _ rfl]
    show run (mid done i (T ++ [.name p.1] ++ [.op '='] ++ argValueToks p.2 ++ [.op ',']) d) (args.flatMap argText ++ rest) = _
    rw [run_args fun q hq => h q (List.mem_cons_of_mem _ hq)]
    simp only [List.append_assoc, List.cons_append, List.nil_append, argToks]

theorem parse_argValue {a : PyArg} (h : a.Fits) (acc f args key outer) :
    Parse.run (some ⟨.call acc f args key, outer, none, none, false⟩) (argValueToks a) = some ⟨.call acc f args key, outer, none, some a.value, false⟩ := by
  cases a with
  | texts l => exact parse_texts l none (.call acc f args key) outer
  | rawText s => rfl
  | text s => rfl
  | expr s =>
    rcases h with h | rfl | rfl | rfl | h
    · obtain ⟨c, cs, rfl, hc⟩ := h.first
      have hk : ¬ ((c :: cs) = py"True" ∨ (c :: cs) = py"False" ∨ (c :: cs) = py"None") := by
        intro hk
        refine h.keyword ?_
        rcases hk with hk | hk | hk <;> rw [hk] <;> decide
      show Parse.run _ (if isLetterC c then _ else _) = some ⟨_, _, none, some (if _ then _ else if isLetterC c then _ else _), false⟩
      rw [if_pos hc, if_pos hc, if_neg hk, nameTok_ident h]
      rfl
    · rfl
    · rfl
    · rfl
    · obtain ⟨c, r, rfl, hc⟩ := numeral_first h
      have hk : ¬ ((c :: r) = py"True" ∨ (c :: r) = py"False" ∨ (c :: r) = py"None") := by
        intro hk
        rcases hk with hk | hk | hk <;> (rw [(List.cons.inj hk).1] at hc; exact absurd hc (by decide))
      show Parse.run _ (if isLetterC c then _ else _) = some ⟨_, _, none, some (if _ then _ else if isLetterC c then _ else _), false⟩
      rw [if_neg (by rw [hc]; decide), if_neg hk, if_neg (by rw [hc]; decide)]
      rfl

theorem parse_args : ∀ {args : List (Str × PyArg)}, (∀ p ∈ args, p.2.Fits) → ∀ acc f done outer,
    Parse.run (some ⟨.call acc f done none, outer, none, none, false⟩) (args.flatMap argToks) =
      some ⟨.call acc f (done ++ args.map fun p => (some p.1, p.2.value)) none, outer, none, none, false⟩
  | [], _, acc, f, done, outer => by rw [List.map_nil, List.append_nil]; rfl
  | p :: args, h, acc, f, done, outer => by
    rw [List.flatMap_cons, parse_append]
    have h1 : Parse.run (some ⟨.call acc f done none, outer, none, none, false⟩) (argToks p) =
        some ⟨.call acc f (done ++ [(some p.1, p.2.value)]) none, outer, none, none, false⟩ := by
      show Parse.run (some ⟨.call acc f done (some p.1), outer, none, none, false⟩) (argValueToks p.2 ++ [.op ',']) = _
      rw [parse_append, parse_argValue (h p (List.mem_cons_self ..))]
      rfl
    rw [h1, parse_args (fun q hq => h q (List.mem_cons_of_mem _ hq)), List.append_assoc]
    rfl

def PyField.toks : PyField → List Tok
  | .attribute n t tag use => .name n :: .op '=' :: .name py"xsd" :: .op '.' :: .name py"Attribute" :: .op '(' ::
      ((t.toks ++ (tagToks tag ++ (.op ',' :: .name py"use" :: .op '=' :: useToks use))) ++ [.op ')'])
  | .ref n t => .name n :: .op '=' :: .name py"xsd" :: .op '.' :: .name py"Ref" :: .op '(' :: (t.toks ++ [.op ')'])
  | .element n t tag m nillable => .name n :: .op '=' :: .name py"xsd" :: .op '.' :: .name py"Element" :: .op '(' ::
      ((t.toks ++ (tagToks tag ++ (minToks m ++ nillableToks nillable))) ++ [.op ')'])
  | .list n t tag m b nillable => .name n :: .op '=' :: .name py"xsd" :: .op '.' :: .name py"ListElement" :: .op '(' ::
      ((t.toks ++ (tagToks (some tag) ++ (minToks m ++ ((.op ',' :: .name py"maxOccurs" :: .op '=' :: boundToks b) ++ nillableToks nillable)))) ++ [.op ')'])
  | .inPlace n t args => .name n :: .op '=' :: .name py"xsd" :: .op '.' :: .name py"Element" :: .op '(' ::
      ((t.toks ++ (.op '(' :: (args.flatMap argToks ++ [.op ')']))) ++ [.op ')'])

/-- What the templates take care of themselves. -/
def PyField.Regular : PyField → Prop
  | .attribute _ _ _ use => IsUse use
  | .inPlace _ _ args => ∀ p ∈ args, Identifier p.1
  | _ => True

theorem reads_field {f : PyField} (h : f.Fits) (hr : f.Regular) : Reads f.text [(4, f.toks, .assign (.name f.target) f.value)] := by
  cases f with
  | «attribute» n t tag use =>
    obtain ⟨h1, h2, h3⟩ := h
    refine reads_one (fun done => ?_) (parse_call ?_)
    · have := run_call h1 (F := py"Attribute") (ident_of (by decide)) (spells_tail (spells_ref h2) (tail_append (tail_tag h3)
        (tail_key (key := py"use") (ident_of (by decide)) (spells_use hr)))) done
      simpa only [PyField.text, PyField.toks, List.append_assoc, List.cons_append, List.nil_append] using this
    · intro acc f fr outer
      rcases hr with rfl | rfl | rfl <;> cases t <;> cases tag <;> rfl
  | ref n t =>
    obtain ⟨h1, h2⟩ := h
    refine reads_one (fun done => ?_) (parse_call ?_)
    · exact run_call h1 (F := py"Ref") (ident_of (by decide)) (spells_ref h2) done
    · intro acc f fr outer
      cases t <;> rfl
  | element n t tag m nillable =>
    obtain ⟨h1, h2, h3⟩ := h
    refine reads_one (fun done => ?_) (parse_call ?_)
    · have := run_call h1 (F := py"Element") (ident_of (by decide)) (spells_tail (spells_ref h2) (tail_append (tail_tag h3)
        (tail_append (tail_min m) (tail_nillable nillable)))) done
      simpa only [PyField.text, PyField.toks, List.append_assoc, List.cons_append, List.nil_append] using this
    · intro acc f fr outer
      cases t <;> cases tag <;> cases m <;> cases nillable <;> rfl
  | list n t tag m b nillable =>
    obtain ⟨h1, h2, h3⟩ := h
    refine reads_one (fun done => ?_) (parse_call ?_)
    · have := run_call h1 (F := py"ListElement") (ident_of (by decide)) (spells_tail (spells_ref h2) (tail_append (tail_tag (t := some tag) (by rintro s ⟨⟩; exact h3))
        (tail_append (tail_min m) (tail_append (tail_key (key := py"maxOccurs") (ident_of (by decide)) (spells_bound b)) (tail_nillable nillable))))) done
      simpa only [PyField.text, PyField.toks, List.append_assoc, List.cons_append, List.nil_append] using this
    · intro acc f fr outer
      cases t <;> cases m <;> cases b <;> cases nillable <;> rfl
  | inPlace n t args =>
    obtain ⟨h1, h2, h3⟩ := h
    have htail : Tail ('(' :: (args.flatMap argText ++ py")")) (.op '(' :: (args.flatMap argToks ++ [.op ')'])) := by
      refine ⟨?_, .inr ⟨_, _, rfl, rfl⟩⟩
      intro done i T d c rest hc
      show run (mid done i (T ++ [.op '(']) (d + 1)) ((args.flatMap argText ++ py")") ++ c :: rest) = _
      rw [List.append_assoc, run_args fun p hp => ⟨hr p hp, h3 p hp⟩]
      show run (mid done i (T ++ [.op '('] ++ args.flatMap argToks ++ [.op ')']) d) (c :: rest) = _
      simp only [List.append_assoc]
      rfl
    refine reads_one (fun done => ?_) (parse_call ?_)
    · have := run_call h1 (F := py"Element") (ident_of (by decide)) (spells_tail (spells_ref h2) htail) done
      refine Eq.trans ?_ (this.trans ?_)
      · congr 1
        show py"    " ++ (n ++ (py" = xsd.Element(" ++ (t.text ++ ('(' :: (args.flatMap argText ++ py"))\n"))))) =
          py"    " ++ (n ++ (py" = xsd.Element(" ++ ((t.text ++ ('(' :: (args.flatMap argText ++ py")"))) ++ py")\n")))
        simp only [List.append_assoc, List.cons_append, List.nil_append]
      · rfl
    · intro acc f fr outer
      have key : ∀ acc' g fr' outer', Parse.run (some ⟨.call acc' g [] none, fr' :: outer', none, none, false⟩) (args.flatMap argToks ++ ([.op ')'] ++ [.op ')'])) =
          Parse.run (some ⟨fr', outer', acc', some (.call g (args.map fun p => (some p.1, p.2.value))), false⟩) [.op ')'] := by
        intro acc' g fr' outer'
        rw [parse_append, parse_args h3]
        rfl
      rw [List.append_assoc, List.cons_append, List.append_assoc]
      cases t with
      | xsd m => exact key none (.xsd m) (.call acc f [] none) (fr :: outer)
      | name m => exact key none (.name m) (.call acc f [] none) (fr :: outer)
      | path m => exact key (some (.name py"__name__")) (.text ('.' :: m)) (.call acc f [] none) (fr :: outer)

end Soapfish
