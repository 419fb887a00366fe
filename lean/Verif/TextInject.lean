import Verif.TextProof
/-
Reading expressions in generated text.
-/
namespace Soapfish

open PyLex

/-- The text has these tokens also before a dot. -/
def SpellsDot (s : Str) (ts : List Tok) : Prop := ∀ done i T d rest, run (mid done i T d) (s ++ '.' :: rest) = run (mid done i (T ++ ts) d) ('.' :: rest)

/-- The tokens are an operand. -/
def Operand (ts : List Tok) (e : PyExpr) : Prop := ∀ frame outer acc rest, (∀ t, frame ≠ .top t true) →
  Parse.run (some ⟨frame, outer, acc, none, false⟩) (ts ++ rest) = Parse.run (some ⟨frame, outer, acc, some e, false⟩) rest

theorem operand_tok {t : Tok} {e : PyExpr} (h : ∀ p : Parse, p.cur = none → p.step t = p.operand e) : Operand [t] e := by
  intro frame outer acc rest hf
  show Parse.run (Parse.step ⟨frame, outer, acc, none, false⟩ t) rest = _
  rw [h _ rfl, operand_step hf]

/-- The tokens are arguments. -/
def ArgToks (ts : List Tok) (args : List (Option Str × PyExpr)) : Prop := ∀ acc f done fr outer rest,
  Parse.run (some ⟨.call acc f done none, fr :: outer, none, none, false⟩) (ts ++ .op ')' :: rest) = Parse.run (some ⟨fr, outer, acc, some (.call f (done ++ args)), false⟩) rest

theorem dot_step {frame : PyFrame} {outer acc e rest} (h : ∀ t, frame ≠ .top t true) :
    Parse.run (some ⟨frame, outer, acc, some e, false⟩) (.op '.' :: rest) = Parse.run (some ⟨frame, outer, acc, some e, true⟩) rest := by
  cases frame with
  | top t c =>
    cases c with
    | true => exact absurd rfl (h t)
    | false => rfl
  | _ => rfl

theorem call_step {frame : PyFrame} {outer acc e rest} (h : ∀ t, frame ≠ .top t true) :
    Parse.run (some ⟨frame, outer, acc, some e, false⟩) (.op '(' :: rest) = Parse.run (some ⟨.call acc e [] none, frame :: outer, none, none, false⟩) rest := by
  cases frame with
  | top t c =>
    cases c with
    | true => exact absurd rfl (h t)
    | false => rfl
  | _ => rfl

theorem spells_call {s t : Str} {ts ta : List Tok} (hs : SpellsToks s ts) (ht : SpellsToks t ta) : ∀ done i T d rest,
    run (mid done i T d) ((s ++ ('(' :: (t ++ [')']))) ++ rest) = run (mid done i (T ++ (ts ++ .op '(' :: (ta ++ [.op ')']))) d) rest := by
  intro done i T d rest
  rw [show (s ++ ('(' :: (t ++ [')']))) ++ rest = s ++ '(' :: (t ++ ')' :: rest) by simp only [List.append_assoc, List.cons_append, List.nil_append], hs _ _ _ _ _ _ rfl]
  show run (mid done i (T ++ ts ++ [.op '(']) (d + 1)) (t ++ ')' :: rest) = _
  rw [ht _ _ _ _ _ _ rfl]
  show run (mid done i (T ++ ts ++ [.op '('] ++ ta ++ [.op ')']) d) rest = _
  simp only [List.append_assoc, List.cons_append, List.nil_append]

mutual
theorem written_reads : ∀ {s : Str} {e : PyExpr}, Written s e → ∃ ts, SpellsToks s ts ∧ ((∀ k, e ≠ .num k) → SpellsDot s ts) ∧ Operand ts e
  | _, _, .name (n := n) h => by
    refine ⟨[.name n], spells_name h, fun _ => ?_, operand_tok fun p hp => ?_⟩
    · intro done i T d rest
      rw [run_ident h]
      have : (isLetterC '.' || isDigitC '.') = false := rfl
      show run (begin (push ⟨done, i, T, d, .name n⟩ (nameTok n)) '.') rest = _
      rw [nameTok_ident h]
      rfl
    · obtain ⟨_, _, _, cur, dot⟩ := p
      cases hp
      cases dot <;> rfl
  | _, _, .text (s := s) h => by
    refine ⟨[.str false '\'' s], spells_quoted h, fun _ => ?_, operand_tok fun _ _ => rfl⟩
    intro done i T d rest
    rw [List.cons_append, List.append_assoc, run_cons]
    show run ⟨done, i, T, d, .str false '\'' [] false⟩ (s ++ ('\'' :: '.' :: rest)) = _
    rw [str_chars h]
    cases s <;> rfl
  | s, _, .num h => ⟨[.num s], spells_numeral h, fun hk => absurd rfl (hk s), operand_tok fun _ _ => rfl⟩
  | _, _, .attr (s := s) (e := e) (n := n) h hk hn => by
    obtain ⟨ts, _, h2, h3⟩ := written_reads h
    have hd : ∀ done i T d rest, run (mid done i T d) ((s ++ ('.' :: n)) ++ rest) = run ⟨done, i, T ++ ts ++ [.op '.'], d, .name n⟩ rest := by
      intro done i T d rest
      rw [List.append_assoc, List.cons_append, h2 hk]
      show run ⟨done, i, T ++ ts, d, .dot⟩ (n ++ rest) = _
      rw [run_ident_dot hn]
    refine ⟨ts ++ [.op '.', .name n], ?_, fun _ => ?_, ?_⟩
    · intro done i T d c rest hc
      rw [hd, name_end hn.keyword hc]
      simp only [List.append_assoc, List.cons_append, List.nil_append]
    · intro done i T d rest
      rw [hd]
      show run (begin (push ⟨done, i, T ++ ts ++ [.op '.'], d, .name n⟩ (nameTok n)) '.') rest = _
      rw [nameTok_ident hn]
      show run ⟨done, i, T ++ ts ++ [.op '.'] ++ [.name n], d, .dot⟩ rest = run ⟨done, i, T ++ (ts ++ [.op '.', .name n]), d, .dot⟩ rest
      simp only [List.append_assoc, List.cons_append, List.nil_append]
    · intro frame outer acc rest hf
      rw [List.append_assoc, h3 _ _ _ _ hf]
      show Parse.run (some ⟨frame, outer, acc, some e, false⟩) (.op '.' :: .name n :: rest) = _
      rw [dot_step hf]
      rfl
  | _, _, .call (s := s) (e := e) (t := t) (args := args) h ha => by
    obtain ⟨ts, h1, _, h3⟩ := written_reads h
    obtain ⟨ta, h4, h5⟩ := written_args ha
    refine ⟨ts ++ .op '(' :: (ta ++ [.op ')']), fun done i T d c rest _ => spells_call h1 h4 .., fun _ done i T d rest => spells_call h1 h4 .., ?_⟩
    intro frame outer acc rest hf
    rw [List.append_assoc, h3 _ _ _ _ hf]
    show Parse.run (some ⟨frame, outer, acc, some e, false⟩) (.op '(' :: ((ta ++ [.op ')']) ++ rest)) = _
    rw [call_step hf, List.append_assoc]
    exact h5 acc e [] frame outer rest
theorem written_args : ∀ {s : Str} {args : List (Option Str × PyExpr)}, WrittenArgs s args → ∃ ts, SpellsToks s ts ∧ ArgToks ts args
  | _, _, .none => ⟨[], spells_nil, fun acc f done fr outer rest => by rw [List.append_nil]; rfl⟩
  | _, _, .one (e := e) h => by
    obtain ⟨ts, h1, _, h3⟩ := written_reads h
    refine ⟨ts, h1, fun acc f done fr outer rest => ?_⟩
    rw [h3 _ _ _ _ (by intro t h; cases h)]
    rfl
  | _, _, .more (s := s) (e := e) (t := t) (a := a) (args := args) h ha => by
    obtain ⟨ts, h1, _, h3⟩ := written_reads h
    obtain ⟨ta, h4, h5⟩ := written_args ha
    refine ⟨ts ++ .op ',' :: ta, ?_, fun acc f done fr outer rest => ?_⟩
    · intro done i T d c rest hc
      rw [show (s ++ (',' :: ' ' :: t)) ++ c :: rest = s ++ ',' :: (' ' :: (t ++ c :: rest)) by simp only [List.append_assoc, List.cons_append], h1 _ _ _ _ _ _ rfl]
      show run (mid done i (T ++ ts ++ [.op ',']) d) (t ++ c :: rest) = _
      rw [h4 _ _ _ _ _ _ hc]
      simp only [List.append_assoc, List.cons_append, List.nil_append]
    · rw [List.append_assoc, h3 _ _ _ _ (by intro t h; cases h)]
      show Parse.run (some ⟨.call acc f (done ++ [(none, e)]) none, fr :: outer, none, none, false⟩) (ta ++ .op ')' :: rest) = _
      rw [h5, List.append_assoc]
      rfl
end

/-- An expression between two empty texts -/
theorem reads'_inject {s : Str} {e : PyExpr} (h : Written s e) :
    Reads' (enumerationText (some [py"', " ++ (s ++ py", '")])) [(4, .assign (.name py"enumeration") (.list [.text [], e, .text []]))] := by
  obtain ⟨ts, h1, _, h3⟩ := written_reads h
  refine reads'_one (ts := .name py"enumeration" :: .op '=' :: .op '[' :: .str false '\'' [] :: .op ',' :: (ts ++ [.op ',', .str false '\'' [], .op ']'])) (fun done => ?_) (parse_assign ?_)
  · show run (bol done) (py"    enumeration = [" ++ (quoted (py"', " ++ (s ++ py", '")) ++ py"]\n")) = _
    rw [show quoted (py"', " ++ (s ++ py", '")) ++ py"]\n" = py"'', " ++ (s ++ ',' :: py" '']\n") by
      unfold quoted
      simp only [List.append_assoc, List.cons_append, List.nil_append]]
    show run (mid done 4 [.name py"enumeration", .op '=', .op '[', .str false '\'' [], .op ','] 1) (s ++ ',' :: py" '']\n") = _
    rw [h1 _ _ _ _ _ _ rfl]
    show bol (done ++ [(4, [.name py"enumeration", .op '=', .op '[', .str false '\'' [], .op ','] ++ ts ++ [.op ','] ++ [.str false '\'' []] ++ [.op ']'])]) = _
    simp only [List.append_assoc, List.cons_append, List.nil_append]
  · show Parse.run (some ⟨.list none [.text []], [.top (some (.name py"enumeration")) false], none, none, false⟩) (ts ++ [.op ',', .str false '\'' [], .op ']']) = _
    rw [h3 _ _ _ _ (by intro t h; cases h)]
    rfl

theorem quotable_plain {q : Char} : ∀ {s : Str}, (∀ c ∈ s, c ≠ q ∧ c ≠ '\\' ∧ c ≠ '\n' ∧ c ≠ '\r' ∧ c ≠ Char.ofNat 0) → Quotable q s
  | [], _ => .nil
  | c :: s, h => by
    obtain ⟨h1, h2, h3, h4, h5⟩ := h c (List.mem_cons_self ..)
    exact .char h1 h2 h3 h4 h5 (quotable_plain fun x hx => h x (List.mem_cons_of_mem _ hx))

end Soapfish
