import Verif.Spec.Text
import Verif.RunTexts
/-
Reading generated text: lexical matters.
-/
namespace Soapfish

open PyLex

/-- Characters at which a name or number ends and a literal has ended. -/
def isSep (c : Char) : Bool := c = ' ' || c = '\n' || c = ',' || c = '=' || c = ':' || c = '+' || c = '(' || c = ')' || c = '[' || c = ']' || c = '{' || c = '}'

/-- In the middle of a line -/
abbrev mid (done : List (Nat × List Tok)) (i : Nat) (T : List Tok) (d : Nat) : PyLex := ⟨done, i, T, d, .idle⟩
/-- At the beginning of a line -/
abbrev bol (done : List (Nat × List Tok)) : PyLex := ⟨done, 0, [], 0, .bol 0⟩

theorem run_append (s : PyLex) (a b : Str) : run s (a ++ b) = run (run s a) b := List.foldl_append
theorem run_cons (s : PyLex) (c : Char) (t : Str) : run s (c :: t) = run (step s c) t := rfl

theorem sep_cases {c : Char} (h : isSep c = true) : c = ' ' ∨ c = '\n' ∨ c = ',' ∨ c = '=' ∨ c = ':' ∨ c = '+' ∨ c = '(' ∨ c = ')' ∨ c = '[' ∨ c = ']' ∨ c = '{' ∨ c = '}' := by
  simpa [isSep, or_assoc] using h

/-- The text stands for these tokens wherever a separator follows. -/
def SpellsToks (s : Str) (ts : List Tok) : Prop :=
  ∀ done i T d c rest, isSep c = true → run (mid done i T d) (s ++ c :: rest) = run (mid done i (T ++ ts) d) (c :: rest)

/-! ### Names -/

theorem name_chars {done i T d} : ∀ {cs : Str} {acc : Str} {rest : Str}, (∀ c ∈ cs, isLetterC c = true ∨ isDigitC c = true) →
    run ⟨done, i, T, d, .name acc⟩ (cs ++ rest) = run ⟨done, i, T, d, .name (acc ++ cs)⟩ rest
  | [], acc, rest, _ => by rw [List.append_nil]; rfl
  | c :: cs, acc, rest, h => by
    have hc : (isLetterC c || isDigitC c) = true := by
      rcases h c (List.mem_cons_self ..) with h | h <;> simp [h]
    rw [List.cons_append, run_cons, show step ⟨done, i, T, d, .name acc⟩ c = ⟨done, i, T, d, .name (acc ++ [c])⟩ by simp [step, hc],
      name_chars fun x hx => h x (List.mem_cons_of_mem _ hx), List.append_assoc]
    rfl

theorem begin_letter {c : Char} (h : isLetterC c = true) (s : PyLex) : begin s c = { s with mode := .name [c] } := by
  simp [begin, h]

theorem letter_not {c : Char} (h : isLetterC c = true) : c ≠ ' ' ∧ c ≠ '\n' ∧ c ≠ '#' ∧ isDigitC c = false := by
  refine ⟨?_, ?_, ?_, ?_⟩
  · rintro rfl; exact absurd h (by decide)
  · rintro rfl; exact absurd h (by decide)
  · rintro rfl; exact absurd h (by decide)
  · simp only [isLetterC, isDigitC, decide_eq_true_eq, decide_eq_false_iff_not, Char.le_def] at h ⊢
    intro hd
    rcases h with h | h | h
    · exact absurd (UInt32.le_trans h.1 hd.2) (by decide)
    · exact absurd (UInt32.le_trans h.1 hd.2) (by decide)
    · subst h; exact absurd hd.2 (by decide)

theorem run_ident {n : Str} (h : Identifier n) {done i T d rest} :
    run (mid done i T d) (n ++ rest) = run ⟨done, i, T, d, .name n⟩ rest := by
  obtain ⟨c, cs, rfl, hc⟩ := h.first
  rw [List.cons_append, run_cons, show step (mid done i T d) c = ⟨done, i, T, d, .name [c]⟩ from begin_letter hc _,
    name_chars fun x hx => h.chars x (List.mem_cons_of_mem _ hx)]
  rfl

theorem run_ident_dot {n : Str} (h : Identifier n) {done i T d rest} :
    run ⟨done, i, T, d, .dot⟩ (n ++ rest) = run ⟨done, i, T ++ [.op '.'], d, .name n⟩ rest := by
  obtain ⟨c, cs, rfl, hc⟩ := h.first
  rw [List.cons_append, run_cons, show step ⟨done, i, T, d, .dot⟩ c = ⟨done, i, T ++ [.op '.'], d, .name [c]⟩ by
    simp only [step, (letter_not hc).2.2.2]
    exact begin_letter hc _,
    name_chars fun x hx => h.chars x (List.mem_cons_of_mem _ hx)]
  rfl

theorem run_ident_bol {n : Str} (h : Identifier n) {done i k rest} :
    run ⟨done, i, [], 0, .bol k⟩ (n ++ rest) = run ⟨done, k, [], 0, .name n⟩ rest := by
  obtain ⟨c, cs, rfl, hc⟩ := h.first
  rw [List.cons_append, run_cons, show step ⟨done, i, [], 0, .bol k⟩ c = ⟨done, k, [], 0, .name [c]⟩ by
    simp only [step, (letter_not hc).1, (letter_not hc).2.1, (letter_not hc).2.2.1, if_false]
    exact begin_letter hc _,
    name_chars fun x hx => h.chars x (List.mem_cons_of_mem _ hx)]
  rfl

theorem nameTok_ident {n : Str} (h : Identifier n) : nameTok n = .name n := if_neg h.keyword

theorem name_end {n : Str} (h : n ∉ kwlist) {done i T d c rest} (hc : isSep c = true) :
    run ⟨done, i, T, d, .name n⟩ (c :: rest) = run (mid done i (T ++ [.name n]) d) (c :: rest) := by
  have : nameTok n = .name n := if_neg h
  rw [← this]
  rcases sep_cases hc with rfl | rfl | rfl | rfl | rfl | rfl | rfl | rfl | rfl | rfl | rfl | rfl <;> rfl

theorem spells_name {n : Str} (h : Identifier n) : SpellsToks n [.name n] := by
  intro done i T d c rest hc
  rw [run_ident h, name_end h.keyword hc]

theorem spells_xsd {n : Str} (h : Identifier n) : SpellsToks (py"xsd." ++ n) [.name py"xsd", .op '.', .name n] := by
  intro done i T d c rest hc
  rw [List.append_assoc]
  show run ⟨done, i, T ++ [.name py"xsd"], d, .dot⟩ (n ++ c :: rest) = _
  rw [run_ident_dot h, name_end h.keyword hc]
  simp only [List.append_assoc]
  rfl

/-! ### Texts -/

theorem str_chars {q : Char} {s : Str} (h : Quotable q s) : ∀ {done i T d raw acc rest},
    run ⟨done, i, T, d, .str raw q acc false⟩ (s ++ rest) = run ⟨done, i, T, d, .str raw q (acc ++ s) false⟩ rest := by
  induction h with
  | nil => intro done i T d raw acc rest; rw [List.append_nil]; rfl
  | @char c s h1 h2 h3 h4 h5 _ ih =>
    intro done i T d raw acc rest
    rw [List.cons_append, run_cons, show step ⟨done, i, T, d, .str raw q acc false⟩ c = ⟨done, i, T, d, .str raw q (acc ++ [c]) false⟩ by
      simp [step, h1, h2, h3, h4, h5], ih, List.append_assoc]
    rfl
  | @pair c s h1 h2 h3 _ ih =>
    intro done i T d raw acc rest
    rw [List.cons_append, List.cons_append, run_cons, run_cons]
    rw [show step (step ⟨done, i, T, d, .str raw q acc false⟩ '\\') c = ⟨done, i, T, d, .str raw q (acc ++ ['\\'] ++ [c]) false⟩ by
      simp [step, h1, h2, h3], ih, List.append_assoc, List.append_assoc]
    rfl

theorem str_end {q : Char} (hq : q = '\'' ∨ q = '"') {done i T d raw acc c rest} (hc : isSep c = true) :
    run ⟨done, i, T, d, .str raw q acc false⟩ (q :: c :: rest) = run (mid done i (T ++ [.str raw q acc]) d) (c :: rest) := by
  have h1 : step ⟨done, i, T, d, .str raw q acc false⟩ q = (match acc with
      | [] => ⟨done, i, T ++ [.str raw q acc], d, .shut q⟩
      | _ :: _ => mid done i (T ++ [.str raw q acc]) d) := by
    rcases hq with rfl | rfl <;> cases acc <;> rfl
  rw [run_cons, h1]
  cases acc with
  | nil =>
    show run (step ⟨done, i, T ++ [.str raw q []], d, .shut q⟩ c) rest = run (step (mid done i (T ++ [.str raw q []]) d) c) rest
    have : c ≠ q := by
      rintro rfl
      rcases hq with rfl | rfl <;> exact absurd hc (by decide)
    rw [show step ⟨done, i, T ++ [.str raw q []], d, .shut q⟩ c = step (mid done i (T ++ [.str raw q []]) d) c by simp [step, this]]
  | cons a as => rfl

theorem spells_quoted {s : Str} (h : Quotable '\'' s) : SpellsToks (quoted s) [.str false '\'' s] := by
  intro done i T d c rest hc
  show run ⟨done, i, T, d, .str false '\'' [] false⟩ ((s ++ py"'") ++ c :: rest) = _
  rw [List.append_assoc, str_chars h]
  exact str_end (.inl rfl) hc

theorem spells_raw {s : Str} (h : Quotable '\'' s) : SpellsToks ('r' :: quoted s) [.str true '\'' s] := by
  intro done i T d c rest hc
  show run ⟨done, i, T, d, .str true '\'' [] false⟩ ((s ++ py"'") ++ c :: rest) = _
  rw [List.append_assoc, str_chars h]
  exact str_end (.inl rfl) hc

theorem spells_double {s : Str} (h : Quotable '"' s) : SpellsToks (py"\"" ++ (s ++ py"\"")) [.str false '"' s] := by
  intro done i T d c rest hc
  show run ⟨done, i, T, d, .str false '"' [] false⟩ ((s ++ py"\"") ++ c :: rest) = _
  rw [List.append_assoc, str_chars h]
  exact str_end (.inr rfl) hc

/-! ### Numbers -/

theorem num_chars {done i T d} : ∀ {cs : Str} {acc : Str} {rest : Str}, (∀ c ∈ cs, isDigitC c = true ∨ c = '.') →
    run ⟨done, i, T, d, .num acc⟩ (cs ++ rest) = run ⟨done, i, T, d, .num (acc ++ cs)⟩ rest
  | [], acc, rest, _ => by rw [List.append_nil]; rfl
  | c :: cs, acc, rest, h => by
    have hc : (isLetterC c || isDigitC c || decide (c = '.')) = true := by
      rcases h c (List.mem_cons_self ..) with h | h <;> simp [h]
    rw [List.cons_append, run_cons, show step ⟨done, i, T, d, .num acc⟩ c = ⟨done, i, T, d, .num (acc ++ [c])⟩ by simp only [step, hc, if_true],
      num_chars fun x hx => h x (List.mem_cons_of_mem _ hx), List.append_assoc]
    rfl

theorem num_end {n : Str} {done i T d c rest} (hn : isNumber n = true) (hc : isSep c = true) :
    run ⟨done, i, T, d, .num n⟩ (c :: rest) = run (mid done i (T ++ [.num n]) d) (c :: rest) := by
  have h : ∀ c, (isLetterC c || isDigitC c || decide (c = '.')) = false → step ⟨done, i, T, d, .num n⟩ c = step (mid done i (T ++ [.num n]) d) c := fun c hc => by
    show (if (isLetterC c || isDigitC c || decide (c = '.')) = true then _ else if isNumber n = true then _ else _) = _
    rw [if_neg (by rw [hc]; decide), if_pos hn]
    rfl
  rw [run_cons, run_cons, h c]
  rcases sep_cases hc with rfl | rfl | rfl | rfl | rfl | rfl | rfl | rfl | rfl | rfl | rfl | rfl <;> rfl

theorem digit_not {c : Char} (h : isDigitC c = true) : isLetterC c = false ∧ c ≠ ' ' ∧ c ≠ '\n' := by
  refine ⟨?_, ?_, ?_⟩
  · cases hl : isLetterC c
    · rfl
    · have := (letter_not hl).2.2.2
      rw [h] at this
      exact this
  · rintro rfl; exact absurd h (by decide)
  · rintro rfl; exact absurd h (by decide)

theorem begin_digit {c : Char} (h : isDigitC c = true) (s : PyLex) : begin s c = { s with mode := .num [c] } := by
  simp [begin, h, (digit_not h).1]

/-- What a number looks like to begin with -/
inductive NumShape : Str → Prop where
  | digits {c s} : isDigitC c = true → (∀ d ∈ s, isDigitC d = true ∨ d = '.') → NumShape (c :: s)
  | point {c s} : isDigitC c = true → (∀ d ∈ s, isDigitC d = true ∨ d = '.') → NumShape ('.' :: c :: s)
  | minus {c s} : isDigitC c = true ∨ c = '.' → (∀ d ∈ s, isDigitC d = true ∨ d = '.') → NumShape ('-' :: c :: s)

theorem spells_shape {n : Str} (hn : isNumber n = true) (h : NumShape n) : SpellsToks n [.num n] := by
  intro done i T d c rest hc
  cases h with
  | @digits a s h1 h2 =>
    rw [List.cons_append, run_cons, show step (mid done i T d) a = ⟨done, i, T, d, .num [a]⟩ from begin_digit h1 _, num_chars h2]
    exact num_end hn hc
  | @point a s h1 h2 =>
    rw [List.cons_append, List.cons_append, run_cons, run_cons, show step (step (mid done i T d) '.') a = ⟨done, i, T, d, .num ['.', a]⟩ by
      rw [show step (mid done i T d) '.' = ⟨done, i, T, d, .dot⟩ from rfl]; simp [step, h1], num_chars h2]
    exact num_end hn hc
  | @minus a s h1 h2 =>
    rw [List.cons_append, List.cons_append, run_cons, run_cons, show step (step (mid done i T d) '-') a = ⟨done, i, T, d, .num ['-', a]⟩ by
      rw [show step (mid done i T d) '-' = ⟨done, i, T, d, .minus⟩ from rfl]
      have : (isDigitC a || decide (a = '.')) = true := by rcases h1 with h | h <;> simp [h]
      simp only [step, this, if_true], num_chars h2]
    exact num_end hn hc

theorem unsigned_shape {n : Str} (h : Unsigned n) : NumShape n ∧ NumShape ('-' :: n) ∧ n.head? ≠ some '-' := by
  cases h with
  | zero => exact ⟨.digits rfl (fun _ h => nomatch h), .minus (.inl rfl) (fun _ h => nomatch h), by decide⟩
  | @int c s h1 h2 h3 =>
    refine ⟨.digits h1 fun d hd => .inl (h3 d hd), .minus (.inl h1) fun d hd => .inl (h3 d hd), fun h => ?_⟩
    injection h with h
    rw [h] at h1
    exact absurd h1 (by decide)
  | @point a b h1 h2 h3 =>
    cases a with
    | nil =>
      cases b with
      | nil => exact absurd rfl h3
      | cons c b =>
        refine ⟨.point (h2 c (List.mem_cons_self ..)) fun d hd => .inl (h2 d (List.mem_cons_of_mem _ hd)), .minus (.inr rfl) fun d hd => .inl (h2 d hd), ?_⟩
        show some '.' ≠ some '-'
        decide
    | cons c a =>
      have hc := h1 c (List.mem_cons_self ..)
      have hrest : ∀ d ∈ a ++ '.' :: b, isDigitC d = true ∨ d = '.' := fun d hd => by
        rcases List.mem_append.1 hd with hd | hd
        · exact .inl (h1 d (List.mem_cons_of_mem _ hd))
        · rcases List.mem_cons.1 hd with rfl | hd
          · exact .inr rfl
          · exact .inl (h2 d hd)
      refine ⟨.digits hc hrest, .minus (.inl hc) hrest, fun h => ?_⟩
      have h : some c = some '-' := h
      injection h with h
      rw [h] at hc
      exact absurd hc (by decide)

theorem count_digits {l : Str} (h : ∀ d ∈ l, isDigitC d = true) : l.count '.' = 0 :=
  List.count_eq_zero.2 fun hm => absurd (h _ hm) (by decide)

theorem unsigned_number {n : Str} (h : Unsigned n) : isNumeral n = true ∨ (n.all (fun c => isDigitC c || c = '.') && n.any isDigitC && n.count '.' = 1) = true := by
  cases h with
  | zero => exact .inl rfl
  | @int c s h1 h2 h3 =>
    left
    unfold isNumeral
    split
    · rename_i heq; cases heq
    · rfl
    · rename_i heq; injection heq with h _; exact absurd h h2
    · exact List.all_eq_true.2 fun d hd => by
        rcases List.mem_cons.1 hd with rfl | hd
        · exact h1
        · exact h3 d hd
  | @point a b h1 h2 h3 =>
    right
    have e1 : (a ++ '.' :: b).all (fun c => isDigitC c || c = '.') = true := List.all_eq_true.2 fun d hd => by
      rcases List.mem_append.1 hd with hd | hd
      · rw [h1 d hd]; rfl
      · rcases List.mem_cons.1 hd with rfl | hd
        · rfl
        · rw [h2 d hd]; rfl
    have e2 : (a ++ '.' :: b).any isDigitC = true := by
      rw [List.any_append]
      cases a with
      | nil =>
        cases b with
        | nil => exact absurd rfl h3
        | cons c b => simp [h2 c (List.mem_cons_self ..)]
      | cons c a => simp [h1 c (List.mem_cons_self ..)]
    have e3 : (a ++ '.' :: b).count '.' = 1 := by
      rw [List.count_append, List.count_cons_self, count_digits h1, count_digits h2]
    rw [e1, e2, e3]
    rfl

theorem isUnsigned_of {n : Str} (h : Unsigned n) : isUnsigned n = true := by
  unfold isUnsigned
  rcases unsigned_number h with e | e <;> rw [e] <;> simp

theorem number_of {n : Str} (h : Numeral n) : isNumber n = true := by
  rcases h with h | ⟨r, rfl, h⟩
  · unfold isNumber
    split
    · exact absurd rfl (unsigned_shape h).2.2
    · exact isUnsigned_of h
  · exact isUnsigned_of h

theorem spells_numeral {n : Str} (h : Numeral n) : SpellsToks n [.num n] := by
  have hn := number_of h
  rcases h with h | ⟨r, rfl, h⟩
  · exact spells_shape hn (unsigned_shape h).1
  · exact spells_shape hn (unsigned_shape h).2.1

theorem natStr_unsigned (n : Nat) : Unsigned (natStr n) := by
  by_cases h0 : n = 0
  · subst h0; exact .zero
  obtain ⟨c, cs, hc, hd⟩ := natStr_cons n
  have hh := natStr_head n h0
  rw [hc] at hh ⊢
  refine .int (digit_isDigitC hd) (fun he => hh (by rw [he]; rfl)) fun d hd => digit_isDigitC ?_
  exact natStr_digits n d (by rw [hc]; exact List.mem_cons_of_mem _ hd)

theorem intStr_numeral (n : Int) : Numeral (intStr n) := by
  cases n with
  | ofNat n => exact .inl (natStr_unsigned n)
  | negSucc n => exact .inr ⟨_, rfl, natStr_unsigned (n + 1)⟩

/-! ### Rows of items -/

/-- Items in a row -/
def sepToks : List (List Tok) → List Tok
  | [] => []
  | [a] => a
  | a :: b :: l => a ++ (.op ',' :: sepToks (b :: l))

theorem spells_nil : SpellsToks [] [] := by
  intro done i T d c rest _
  rw [List.append_nil]
  rfl

theorem spells_commaSep {α : Type} {f : α → Str} {g : α → List Tok} : ∀ {l : List α}, (∀ a ∈ l, SpellsToks (f a) (g a)) → SpellsToks (commaSep (l.map f)) (sepToks (l.map g))
  | [], _ => spells_nil
  | [a], h => h a (List.mem_cons_self ..)
  | a :: b :: l, h => by
    intro done i T d c rest hc
    have ih := spells_commaSep (l := b :: l) fun x hx => h x (List.mem_cons_of_mem _ hx)
    show run (mid done i T d) ((f a ++ (py", " ++ commaSep ((b :: l).map f))) ++ c :: rest) = _
    rw [List.append_assoc, List.append_assoc]
    show run (mid done i T d) (f a ++ (',' :: ' ' :: (commaSep ((b :: l).map f) ++ c :: rest))) = _
    rw [h a (List.mem_cons_self ..) _ _ _ _ _ _ rfl]
    show run (mid done i ((T ++ g a) ++ [.op ',']) d) (commaSep ((b :: l).map f) ++ c :: rest) = _
    rw [ih _ _ _ _ _ _ hc, List.append_assoc, List.append_assoc]
    rfl

/-- References -/
def PyRef.toks : PyRef → List Tok
  | .xsd n => [.name py"xsd", .op '.', .name n]
  | .name n => [.name n]
  | .path n => [.name py"__name__", .op '+', .str false '\'' ('.' :: n)]

theorem spells_ref {r : PyRef} (h : r.Fits) : SpellsToks r.text r.toks := by
  cases r with
  | xsd n => exact spells_xsd h
  | name n => exact spells_name h
  | path n =>
    intro done i T d c rest hc
    show run (mid done i T d) ((py"__name__ + '." ++ n ++ ['\'']) ++ c :: rest) = _
    rw [List.append_assoc, List.append_assoc]
    show run ⟨done, i, T ++ [.name py"__name__"] ++ [.op '+'], d, .str false '\'' ['.'] false⟩ (n ++ '\'' :: c :: rest) = _
    rw [str_chars h, str_end (.inl rfl) hc]
    simp only [List.append_assoc]
    rfl

end Soapfish
