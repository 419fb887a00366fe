import Verif.Spec.WsdlText
import Verif.TextInject
/-
Reading the text generated from WSDL documents: expressions, statements, ports.
-/
namespace Soapfish

open PyLex

/-! ### Expressions -/

/-- The text is an expression wherever a separator follows. -/
def Reading (s : Str) (e : PyExpr) : Prop := ∃ ts, SpellsToks s ts ∧ Operand ts e

theorem Written.reading {s : Str} {e : PyExpr} (h : Written s e) : Reading s e := by
  obtain ⟨ts, h1, _, h2⟩ := written_reads h
  exact ⟨ts, h1, h2⟩

theorem reading_name {n : Str} (h : Identifier n) : Reading n (.name n) := (Written.name h).reading
theorem reading_text {s : Str} (h : Quotable '\'' s) : Reading (quoted s) (.text s) := (Written.text h).reading

theorem reading_names {l : List Str} (h : ∀ s ∈ l, Identifier s) : Reading (py"[" ++ (commaSep l ++ py"]")) (.list (l.map .name)) := by
  refine ⟨.op '[' :: (sepToks (l.map fun s => [.name s]) ++ [.op ']']), ?_, ?_⟩
  · intro done i T d c rest hc
    show run (mid done i (T ++ [.op '[']) (d + 1)) ((commaSep l ++ py"]") ++ c :: rest) = _
    have h1 := spells_commaSep (f := fun s => s) (fun s hs => spells_name (h s hs)) done i (T ++ [.op '[']) (d + 1) ']' (c :: rest) rfl
    rw [List.map_id'] at h1
    rw [List.append_assoc]
    refine Eq.trans h1 ?_
    show run (mid done i (T ++ [.op '['] ++ sepToks (l.map fun s => [.name s]) ++ [.op ']']) d) (c :: rest) = _
    simp only [List.append_assoc, List.cons_append, List.nil_append]
  · intro frame outer acc rest hf
    have h1 : Parse.run (some ⟨frame, outer, acc, none, false⟩) (.op '[' :: ((sepToks (l.map fun s => [.name s]) ++ [.op ']']) ++ rest)) =
        Parse.run (some ⟨.list acc [], frame :: outer, none, none, false⟩) ((sepToks (l.map fun s => [.name s]) ++ [.op ']']) ++ rest) := by
      cases frame with
      | top t c => cases c with
        | true => exact absurd rfl (hf t)
        | false => rfl
      | _ => rfl
    rw [List.cons_append, h1, parse_append, parse_names]

/-! ### Arguments in lines -/

/-- Arguments of a call, each with its name and a comma, in lines of their own or not. -/
inductive KeyArgs : Str → List (Option Str × PyExpr) → Prop where
  | nil : KeyArgs [] []
  | cons {pre k v s e args} : pre = [] ∨ pre = py"\n    " → Identifier k → Reading v e → KeyArgs s args →
      KeyArgs (pre ++ (k ++ (py"=" ++ (v ++ (',' :: s))))) ((some k, e) :: args)

theorem KeyArgs.append {s t : Str} {a b} (hs : KeyArgs s a) (ht : KeyArgs t b) : KeyArgs (s ++ t) (a ++ b) := by
  induction hs with
  | nil => exact ht
  | cons h1 h2 h3 _ ih =>
    have := KeyArgs.cons h1 h2 h3 ih
    simp only [List.append_assoc, List.cons_append] at this ⊢
    exact this

theorem keyArgs_key {k v : Str} {e : PyExpr} (hk : Identifier k) (hv : Reading v e) : KeyArgs (keyText k v) [(some k, e)] :=
  .cons (.inr rfl) hk hv .nil

theorem keyArgs_name {k : Str} {o : Option Str} (hk : Identifier k) (ho : ∀ s, o = some s → Identifier s) : KeyArgs (optKeyText k o) (optNameArg k o) := by
  cases o with
  | none => exact .nil
  | some s => exact keyArgs_key hk (reading_name (ho s rfl))

theorem keyArgs_text {k : Str} {o : Option Str} (hk : Identifier k) (ho : ∀ s, o = some s → Quotable '\'' s) : KeyArgs (optKeyText k (o.map quoted)) (optTextArg k o) := by
  cases o with
  | none => exact .nil
  | some s => exact keyArgs_key hk (reading_text (ho s rfl))

theorem keyArgs_param {k pk : Str} {o : Option PyParam} (hk : Identifier k) (hp : Identifier pk) (ho : ∀ p, o = some p → p.Fits) :
    KeyArgs (paramText k pk o) (paramArgs k pk o) := by
  cases o with
  | none => exact .nil
  | some p =>
    cases p with
    | element n part =>
      obtain ⟨h1, h2⟩ := ho _ rfl
      exact .cons (.inr rfl) hk (reading_text h1) (.cons (.inr rfl) hp (reading_text h2) .nil)
    | cls n => exact .cons (.inl rfl) hk (reading_name (ho _ rfl)) .nil

theorem keyArgs_reads {s : Str} {args} (h : KeyArgs s args) : ∃ ts,
    (∀ done i T d rest, run (mid done i T (d + 1)) (s ++ rest) = run (mid done i (T ++ ts) (d + 1)) rest) ∧
    (∀ acc f l outer rest, Parse.run (some ⟨.call acc f l none, outer, none, none, false⟩) (ts ++ rest) =
      Parse.run (some ⟨.call acc f (l ++ args) none, outer, none, none, false⟩) rest) := by
  induction h with
  | nil => exact ⟨[], fun _ _ T _ _ => by rw [List.append_nil]; rfl, fun _ _ l _ _ => by rw [List.append_nil]; rfl⟩
  | @cons pre k v s e args hpre hk hv _ ih =>
    obtain ⟨tv, h1, h2⟩ := hv
    obtain ⟨ts, h3, h4⟩ := ih
    refine ⟨.name k :: .op '=' :: (tv ++ .op ',' :: ts), fun done i T d rest => ?_, fun acc f l outer rest => ?_⟩
    · have hp : run (mid done i T (d + 1)) (pre ++ (k ++ (py"=" ++ (v ++ (',' :: (s ++ rest)))))) = run (mid done i T (d + 1)) (k ++ '=' :: (v ++ (',' :: (s ++ rest)))) := by
        rcases hpre with rfl | rfl <;> rfl
      rw [show (pre ++ (k ++ (py"=" ++ (v ++ (',' :: s))))) ++ rest = pre ++ (k ++ (py"=" ++ (v ++ (',' :: (s ++ rest))))) by
        simp only [List.append_assoc, List.cons_append], hp, spells_name hk _ _ _ _ _ _ rfl]
      show run (mid done i (T ++ [.name k] ++ [.op '=']) (d + 1)) (v ++ ',' :: (s ++ rest)) = _
      rw [h1 _ _ _ _ _ _ rfl]
      show run (mid done i (T ++ [.name k] ++ [.op '='] ++ tv ++ [.op ',']) (d + 1)) (s ++ rest) = _
      rw [h3]
      simp only [List.append_assoc, List.cons_append, List.nil_append]
    · show Parse.run (some ⟨.call acc f l (some k), outer, none, none, false⟩) ((tv ++ .op ',' :: ts) ++ rest) = _
      rw [List.append_assoc, h2 _ _ _ _ (by intro t h; cases h)]
      show Parse.run (some ⟨.call acc f (l ++ [(some k, e)]) none, outer, none, none, false⟩) (ts ++ rest) = _
      rw [h4, List.append_assoc]
      rfl

/-- `name = module.Class(…)` over several lines -/
theorem reads'_keyCall {n m F s : Str} {args} (hn : Identifier n) (hm : Identifier m) (hF : Identifier F) (h : KeyArgs s args) :
    Reads' (n ++ (py" = " ++ (m ++ ('.' :: (F ++ (py"(" ++ (s ++ py"\n)\n\n"))))))) [(0, .assign (.name n) (.call (.attr (.name m) F) args))] := by
  obtain ⟨ts, h1, h2⟩ := keyArgs_reads h
  refine reads'_one (ts := .name n :: .op '=' :: .name m :: .op '.' :: .name F :: .op '(' :: (ts ++ [.op ')'])) (fun done => ?_) (parse_assign ?_)
  · rw [show run (bol done) = run ⟨done, 0, [], 0, .bol 0⟩ from rfl, run_ident_bol hn, show py" = " ++ (m ++ ('.' :: (F ++ (py"(" ++ (s ++ py"\n)\n\n"))))) =
      ' ' :: (py"= " ++ (m ++ ('.' :: (F ++ (py"(" ++ (s ++ py"\n)\n\n")))))) from rfl, name_end hn.keyword rfl]
    show run (mid done 0 [.name n, .op '='] 0) (m ++ ('.' :: (F ++ (py"(" ++ (s ++ py"\n)\n\n"))))) = _
    rw [run_ident hm]
    rw [show run ⟨done, 0, [.name n, .op '='], 0, .name m⟩ ('.' :: (F ++ (py"(" ++ (s ++ py"\n)\n\n")))) =
      run ⟨done, 0, [.name n, .op '=', nameTok m], 0, .dot⟩ (F ++ (py"(" ++ (s ++ py"\n)\n\n"))) from rfl, nameTok_ident hm, run_ident_dot hF,
      show py"(" ++ (s ++ py"\n)\n\n") = '(' :: (s ++ py"\n)\n\n") from rfl, name_end hF.keyword rfl]
    show run (mid done 0 [.name n, .op '=', .name m, .op '.', .name F, .op '('] 1) (s ++ py"\n)\n\n") = _
    rw [h1]
    rfl
  · show Parse.run (some ⟨.call none (.attr (.name m) F) [] none, [.top (some (.name n)) false], none, none, false⟩) (ts ++ [.op ')']) = _
    rw [h2]
    rfl

/-! ### Names -/

theorem identifier_suffix {n suf : Str} (h : Identifier n) (hc : ∀ c ∈ suf, isLetterC c = true ∨ isDigitC c = true) (hk : ∀ k ∈ kwlist, suf.isSuffixOf k = false) : Identifier (n ++ suf) := by
  obtain ⟨c, cs, rfl, hc1⟩ := h.first
  refine ⟨fun x hx => ?_, ⟨c, cs ++ suf, rfl, hc1⟩, fun hm => ?_⟩
  · rcases List.mem_append.1 hx with hx | hx
    · exact h.chars x hx
    · exact hc x hx
  · have h1 := hk _ hm
    rw [List.isSuffixOf_iff_suffix.2 ⟨_, rfl⟩] at h1
    cases h1

theorem ident_method {n : Str} (h : Identifier n) : Identifier (n ++ py"_method") := identifier_suffix h (by decide) (by decide)
theorem ident_service {n : Str} (h : Identifier n) : Identifier (n ++ py"_SERVICE") := identifier_suffix h (by decide) (by decide)
theorem ident_stub {n : Str} (h : Identifier n) : Identifier (n ++ py"ServiceStub") := identifier_suffix h (by decide) (by decide)

theorem quotable_ident {n : Str} (h : Identifier n) : Quotable '\'' n := by
  refine quotable_plain fun c hc => ?_
  refine ⟨?_, ?_, ?_, ?_, ?_⟩ <;> (rintro rfl; rcases h.chars _ hc with h1 | h1 <;> exact absurd h1 (by decide))

/-! ### Lines that say nothing -/

theorem reads'_empty : Reads' py"\n" [] := ⟨[], ⟨fun done => by rw [List.map_nil, List.append_nil]; rfl, fun _ h => nomatch h⟩, rfl⟩

theorem reads'_remark {s : Str} (h : OneLine s) : Reads' ('#' :: (s ++ py"\n")) [] := by
  refine ⟨[], ⟨fun done => ?_, (fun _ h => nomatch h)⟩, rfl⟩
  rw [List.map_nil, List.append_nil]
  show run ⟨done, 0, [], 0, .comment⟩ (s ++ py"\n") = _
  rw [run_comment h]
  rfl

theorem reads'_banner : Reads' banner [] := by
  refine reads'_remark (s := py"#############################################################################") ?_
  unfold OneLine
  decide

/-! ### Methods -/

/-- An assignment in a class body -/
theorem reads'_bodyAssign {n v : Str} {e : PyExpr} (hn : Identifier n) (hv : Reading v e) :
    Reads' (py"    " ++ (n ++ (py" = " ++ (v ++ py"\n")))) [(4, .assign (.name n) e)] := by
  obtain ⟨ts, h1, h2⟩ := hv
  refine reads'_one (fun done => run_assign hn h1 done) (parse_assign ?_)
  have := h2 (.top (some (.name n)) false) [] none [] (by intro t h; cases h)
  rw [List.append_nil] at this
  rw [this]
  rfl

theorem reading_field {e : Str} (h : Quotable '\'' e) : Reading (py"SCHEMA.get_element_by_name(" ++ (quoted e ++ py")")) (PyHeaderField.element e).value :=
  (Written.call (s := py"SCHEMA.get_element_by_name") (.attr (s := py"SCHEMA") (n := py"get_element_by_name") (.name (ident_of rfl)) (fun _ h => nomatch h) (ident_of rfl)) (.one (.text h))).reading

/-- The newline in front of a field ends the line before it. -/
theorem headerFields_shift : ∀ l : List (Str × PyHeaderField), (∀ p ∈ l, ∃ e, p.2 = .element e) → l.flatMap headerFieldText ++ py"\n" =
    py"\n" ++ l.flatMap fun p => match p.2 with
      | .element e => py"    " ++ (p.1 ++ (py" = " ++ ((py"SCHEMA.get_element_by_name(" ++ (quoted e ++ py")")) ++ py"\n")))
      | .cls _ => []
  | [], _ => rfl
  | (n, f) :: l, h => by
    obtain ⟨e, rfl⟩ := h _ (List.mem_cons_self ..)
    rw [List.flatMap_cons, List.flatMap_cons, List.append_assoc, headerFields_shift l fun p hp => h p (List.mem_cons_of_mem _ hp)]
    unfold headerFieldText
    simp only [List.append_assoc, List.cons_append, List.nil_append]

theorem reads'_headerClass {h : PyHeader} (hf : h.Fits) (hs : Identifier h.schema) : Reads' h.text h.lines := by
  have h1 := reads'_header (r := .name py"BaseHeader") hf.name (ident_of rfl)
  have h2 := reads'_bodyAssign (n := py"SCHEMA") (ident_of rfl) (reading_name hs)
  have h3 : Reads' (h.fields.flatMap fun p => match p.2 with
      | .element e => py"    " ++ (p.1 ++ (py" = " ++ ((py"SCHEMA.get_element_by_name(" ++ (quoted e ++ py")")) ++ py"\n")))
      | .cls _ => []) (h.fields.map fun p => (4, .assign (.name p.1) p.2.value)) := by
    refine reads'_map fun p hp => ?_
    obtain ⟨hn, e, he, hq⟩ := hf.fields p hp
    obtain ⟨n, f⟩ := p
    cases he
    exact reads'_bodyAssign hn (reading_field hq)
  have := reads'_append reads'_empty (reads'_append h1 (reads'_append h2 h3))
  have e : h.text = py"\n" ++ ((py"class " ++ (h.name ++ (py"(" ++ (py"BaseHeader" ++ py"):\n")))) ++ ((py"    " ++ (py"SCHEMA" ++ (py" = " ++ (h.schema ++ py"\n")))) ++
      (h.fields.flatMap fun p => match p.2 with
      | .element e => py"    " ++ (p.1 ++ (py" = " ++ ((py"SCHEMA.get_element_by_name(" ++ (quoted e ++ py")")) ++ py"\n")))
      | .cls _ => []))) := by
    unfold PyHeader.text
    rw [headerFields_shift h.fields fun p hp => (hf.fields p hp).2.imp fun _ h => h.1]
    simp only [List.append_assoc, List.cons_append, List.nil_append]
  rw [e]
  exact this

theorem reads'_flatMap {α : Type} {f : α → Str} {g : α → List (Nat × PyLine)} : ∀ {l : List α}, (∀ a ∈ l, Reads' (f a) (g a)) → Reads' (l.flatMap f) (l.flatMap g)
  | [], _ => reads'_nil
  | a :: l, h => by
    rw [List.flatMap_cons, List.flatMap_cons]
    exact reads'_append (h a (List.mem_cons_self ..)) (reads'_flatMap fun b hb => h b (List.mem_cons_of_mem _ hb))

/-- What the templates take care of themselves. -/
structure PyMethod.Regular (m : PyMethod) : Prop where
  schemas : ∀ h ∈ m.headers, Identifier h.schema
  inputHeader : ∀ n, m.inputHeader = some n → ∃ h ∈ m.headers, h.name = n
  outputHeader : ∀ n, m.outputHeader = some n → ∃ h ∈ m.headers, h.name = n

theorem reads'_method {m : PyMethod} (hf : m.Fits) (hr : m.Regular) : Reads' m.text m.lines := by
  have hargs : KeyArgs m.argsText _ := ((KeyArgs.append (s := if m.function then keyText py"function" m.name else [])
      (a := if m.function then [(some py"function", .name m.name)] else []) (by
        split
        · exact keyArgs_key (ident_of rfl) (reading_name hf.name)
        · exact .nil)) (KeyArgs.append (keyArgs_key (k := py"soapAction") (ident_of rfl) (reading_text hf.soapAction))
    (KeyArgs.append (keyArgs_param (ident_of rfl) (ident_of rfl) hf.input) (KeyArgs.append (keyArgs_name (ident_of rfl) fun n hn => by
        obtain ⟨h, h1, rfl⟩ := hr.inputHeader n hn
        exact (hf.headers h h1).name) (KeyArgs.append (keyArgs_param (ident_of rfl) (ident_of rfl) hf.output) (KeyArgs.append (keyArgs_name (ident_of rfl) fun n hn => by
          obtain ⟨h, h1, rfl⟩ := hr.outputHeader n hn
          exact (hf.headers h h1).name) (KeyArgs.append (keyArgs_key (k := py"operationName") (ident_of rfl) (reading_text (quotable_ident hf.name)))
            (keyArgs_text (ident_of rfl) hf.style))))))))
  have h1 := reads'_flatMap fun h hh => reads'_headerClass (hf.headers h hh) (hr.schemas h hh)
  have h2 := reads'_keyCall (m := py"xsd") (F := py"Method") (ident_method hf.name) (ident_of rfl) (ident_of rfl) hargs
  have := reads'_append h1 (reads'_append reads'_empty h2)
  unfold PyMethod.text
  simp only [List.append_assoc, List.cons_append, List.nil_append] at this ⊢
  exact this

end Soapfish
