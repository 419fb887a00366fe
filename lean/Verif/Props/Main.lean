import Verif.Spec.Main
import Verif.Props.Includes
import Verif.Props.Files
/-
C118: the command line programs.
-/
namespace Soapfish

theorem stands_absParts {wd p : Str} (hw : Absolute wd) : StandsFor (rooted wd) p (absParts wd p) := by
  by_cases hp : Absolute p
  · rw [absParts_abs hp]
    exact stands_abs hp _
  · have : absParts wd p = rooted (pathJoin wd p) := by
      rw [← absParts_abs (wd := wd) (rooted_join hw).1]
      unfold absParts absPath
      rw [if_pos (absolute_starts (rooted_join hw).1), if_neg]
      intro h
      apply hp
      cases p with
      | nil => cases h
      | cons c cs =>
        simp [startsWith] at h
        rw [Absolute, List.head?_cons, h]
    rw [this]
    exact (rooted_join hw).2

theorem byteSpace_iff {c : Char} : byteSpace c = true ↔ White c := by
  have key : ∀ n, (n = 11 ∨ n = 12) → (c = Char.ofNat n ↔ c.toNat = n) := by
    rintro n (rfl | rfl)
    · exact ⟨fun h => by rw [h]; decide, fun h => by rw [← Char.ofNat_toNat c, h]⟩
    · exact ⟨fun h => by rw [h]; decide, fun h => by rw [← Char.ofNat_toNat c, h]⟩
  simp only [byteSpace, White, List.mem_cons, List.not_mem_nil, or_false, decide_eq_true_eq, key 11 (.inl rfl), key 12 (.inr rfl)]

theorem dropWhile_split {q : Char → Bool} (l : Str) : ∃ a, l = a ++ l.dropWhile q ∧ (∀ c ∈ a, q c = true) ∧
    ∀ c, (l.dropWhile q).head? = some c → q c = false := by
  induction l with
  | nil => exact ⟨[], rfl, by simp, by simp⟩
  | cons x l ih =>
    by_cases hx : q x = true
    · obtain ⟨a, h1, h2, h3⟩ := ih
      rw [List.dropWhile_cons_of_pos hx]
      exact ⟨x :: a, by rw [List.cons_append, ← h1], by simpa [hx] using h2, h3⟩
    · rw [List.dropWhile_cons_of_neg hx]
      exact ⟨[], rfl, by simp, by simpa using hx⟩

theorem stripBytes_spec (s : Str) : WithoutEnds s (stripBytes s) := by
  unfold stripBytes
  obtain ⟨a, h1, h2, h3⟩ := dropWhile_split (q := byteSpace) s
  obtain ⟨b, k1, k2, k3⟩ := dropWhile_split (q := byteSpace) (s.dropWhile byteSpace).reverse
  generalize (s.dropWhile byteSpace) = m at *
  generalize e : m.reverse.dropWhile byteSpace = r at *
  have hm : m = r.reverse ++ b.reverse := by rw [← List.reverse_append, ← k1, List.reverse_reverse]
  refine ⟨a, b.reverse, by rw [h1, hm]; simp, fun c hc => byteSpace_iff.1 (h2 c hc), fun c hc => byteSpace_iff.1 (k2 c (by simpa using hc)), ?_, ?_⟩
  · intro c hc hw
    have : m.head? = some c := by
      rw [hm, List.head?_append, hc]; rfl
    rw [← byteSpace_iff, h3 c this] at hw
    cases hw
  · intro c hc hw
    rw [List.getLast?_reverse] at hc
    rw [← byteSpace_iff, k3 c hc] at hw
    cases hw

section
variable {wd : Str} {w : List Str} {writable : List Str → Bool} {get : Str → Except Exn Str} {missing : Exn}
  {generate : Str → Str → Except Exn Str} {stdin : Str} {d : Disk} {input : Str} {output : Option Str}

theorem openOutput_ok (hw : Absolute wd) (hs : StandsFor [] wd w) {d1 : Disk} {out : Option (List Str)}
    (h : openOutput wd writable d output = some (d1, out)) : OutputOf w output out ∧
      (out = none → d1 = d) ∧ ∀ g, out = some g → writable g = true ∧ d1 = d.set g [] := by
  have hr := rooted_of_stands hw hs
  cases output with
  | none =>
    injection h with h
    injection h with h1 h2
    subst h1 h2
    exact ⟨.none, fun _ => rfl, fun _ e => by cases e⟩
  | some p =>
    simp only [openOutput] at h
    split at h
    · rename_i hp
      subst hp
      injection h with h
      injection h with h1 h2
      subst h1 h2
      exact ⟨.dash, fun _ => rfl, fun _ e => by cases e⟩
    · split at h
      · rename_i hp hwr
        injection h with h
        injection h with h1 h2
        subst h1 h2
        refine ⟨.file hp (hr ▸ stands_absParts hw), (fun e => by cases e), fun g e => ?_⟩
        injection e with e
        subst e
        exact ⟨hwr, rfl⟩
      · cases h

theorem input_ok (hw : Absolute wd) (hs : StandsFor [] wd w) {d1 : Disk} {out : Option (List Str)} {xml : Str}
    (ho : (out = none → d1 = d) ∧ ∀ g, out = some g → writable g = true ∧ d1 = d.set g [])
    (h : (if input = py"-" then .ok stdin else openDocument wd get missing d1 input) = .ok xml) :
    InputOf w get stdin d out input xml := by
  have hr := rooted_of_stands hw hs
  split at h
  · rename_i hi
    subst hi
    injection h with h
    subst h
    exact .stdin
  · rename_i hi
    unfold openDocument at h
    split at h
    · rename_i hu
      exact .url hi (isUrl_iff.2 hu) h
    · rename_i hu
      rw [← isUrl_iff] at hu
      have hst : StandsFor w input (absParts wd input) := hr ▸ stands_absParts hw
      split at h
      · rename_i t ht
        injection h with h
        subst h
        cases out with
        | none => rw [ho.1 rfl] at ht; exact .file hi hu hst (by simp) ht
        | some g =>
          rw [(ho.2 g rfl).2] at ht
          by_cases hg : absParts wd input = g
          · simp only [Disk.set, if_pos hg] at ht
            injection ht with ht
            subst ht hg
            exact .emptied hi hu hst rfl
          · simp only [Disk.set, if_neg hg] at ht
            exact .file hi hu hst (by simpa using fun e => hg e.symm) ht
      · cases h

theorem rstrip_slash {s : Str} (h : s.getLast? ≠ some '/') : rstripSlash (s ++ ['/']) = s := by
  unfold rstripSlash
  rw [List.reverse_append]
  simp only [List.reverse_cons, List.reverse_nil, List.nil_append, List.cons_append]
  rw [List.dropWhile_cons_of_pos (by simp)]
  have : s.reverse.dropWhile (fun c => decide (c = '/')) = s.reverse := by
    rw [List.getLast?_eq_head?_reverse] at h
    cases hr : s.reverse with
    | nil => rfl
    | cons c cs =>
      rw [hr] at h
      rw [List.dropWhile_cons_of_neg]
      simpa using h
  rw [this, List.reverse_reverse]

theorem upToSlash_concat {a b : Str} (h : '/' ∉ b) : upToSlash (a ++ '/' :: b) = a ++ ['/'] := by
  unfold upToSlash
  have : (a ++ '/' :: b).reverse = b.reverse ++ '/' :: a.reverse := by simp
  rw [this]
  have h2 : (b.reverse ++ '/' :: a.reverse).dropWhile (fun c => decide (c ≠ '/')) = '/' :: a.reverse := by
    have : ∀ r : Str, '/' ∉ r → (r ++ '/' :: a.reverse).dropWhile (fun c => decide (c ≠ '/')) = '/' :: a.reverse := by
      intro r
      induction r with
      | nil => intro _; rw [List.nil_append, List.dropWhile_cons_of_neg (by simp)]
      | cons c cs ih =>
        intro hr
        rw [List.mem_cons, not_or] at hr
        rw [List.cons_append, List.dropWhile_cons_of_pos (by simpa using fun e => hr.1 e.symm), ih hr.2]
    exact this _ (by simpa using h)
  rw [h2]
  simp

theorem slash_runs {l : List Str} (hp : ∀ x ∈ l, x ≠ [] ∧ '/' ∉ x) : ¬ ∃ a b, ['/'].intercalate l = a ++ '/' :: '/' :: b := by
  induction l with
  | nil => rintro ⟨a, b, h⟩; simp [List.intercalate] at h
  | cons x l ih =>
    rintro ⟨a, b, h⟩
    obtain ⟨hx, hxs⟩ := hp x (by simp)
    have hl := fun y hy => hp y (List.mem_cons_of_mem _ hy)
    cases l with
    | nil =>
      have : ['/'].intercalate [x] = x := by simp [List.intercalate]
      rw [this] at h
      exact hxs (by rw [h]; simp)
    | cons y l =>
      have e : ['/'].intercalate (x :: y :: l) = x ++ '/' :: ['/'].intercalate (y :: l) := by simp [List.intercalate]
      rw [e] at h
      rcases List.append_eq_append_iff.1 h with ⟨t, e1, e2⟩ | ⟨t, e1, e2⟩
      · cases t with
        | nil =>
          simp at e2
          have hy := (hl y (by simp))
          have hh := head_intercalate (ps := l) hy.1
          rw [e2] at hh
          simp at hh
          exact hy.2 (List.mem_of_head? hh.symm)
        | cons c t =>
          injection e2 with _ e2
          exact ih hl ⟨t, b, e2⟩
      · apply hxs
        rw [e1]
        cases t with
        | nil =>
          exfalso
          simp at e2
          have hy := (hl y (by simp))
          have hh := head_intercalate (ps := l) hy.1
          rw [← e2] at hh
          simp at hh
          exact hy.2 (List.mem_of_head? hh.symm)
        | cons c t => injection e2 with e2 _; rw [← e2]; simp

/-- The directory of a file that is given by a path. -/
theorem directory_of (hw : Absolute wd) (hs : StandsFor [] wd w) {f : List Str} (hf : StandsFor w input f) (hne : f ≠ []) :
    DirOf f (dirName (absPath wd input)) := by
  have hr := rooted_of_stands hw hs
  -- the absolute path
  obtain ⟨q, hq, hqf, eq⟩ : ∃ q, Absolute q ∧ rooted q = f ∧ absPath wd input = normPath q := by
    by_cases hp : Absolute input
    · refine ⟨input, hp, stands_unique (stands_abs hp w) hf, ?_⟩
      unfold absPath
      rw [absolute_starts hp, if_pos rfl]
    · refine ⟨pathJoin wd input, (rooted_join hw).1, stands_unique (hr ▸ (rooted_join hw).2) hf, ?_⟩
      unfold absPath
      rw [if_neg]
      intro h
      apply hp
      cases input with
      | nil => cases h
      | cons c cs =>
        simp [startsWith] at h
        rw [Absolute, List.head?_cons, h]
  have hpr : ∀ x ∈ f, Proper x := hqf ▸ rooted_proper q
  have hpr' : ∀ x ∈ f.dropLast, x ≠ [] ∧ '/' ∉ x := fun x hx => ⟨(hpr x (List.dropLast_subset _ hx)).1, (hpr x (List.dropLast_subset _ hx)).2.2.2⟩
  have hlast : '/' ∉ f.getLast hne := (hpr _ (List.getLast_mem hne)).2.2.2
  have hsl := initialSlashes_abs hq
  rw [eq, normPath_abs hq, hqf]
  by_cases h0 : f.dropLast = []
  · have hf1 : f = [f.getLast hne] := by
      have := List.dropLast_concat_getLast hne
      rw [h0] at this
      exact this.symm
    have hi : ['/'].intercalate f = f.getLast hne := by
      generalize f.getLast hne = x at hf1
      rw [hf1]; simp [List.intercalate]
    rw [hi]
    have hd : dirName (initialSlashes q ++ f.getLast hne) = initialSlashes q := by
      rcases hsl with e | e
      · have hu := upToSlash_concat (a := []) hlast
        rw [e]
        unfold dirName
        simp only [List.nil_append] at hu
        show (if upToSlash ('/' :: f.getLast hne) ≠ [] ∧ _ then _ else _) = _
        rw [if_neg] <;> simp [hu]
      · have hu := upToSlash_concat (a := ['/']) hlast
        rw [e]
        unfold dirName
        simp only [List.cons_append, List.nil_append] at hu
        show (if upToSlash ('/' :: '/' :: f.getLast hne) ≠ [] ∧ _ then _ else _) = _
        rw [if_neg] <;> simp [hu]
    rw [hd]
    refine ⟨?_, ?_, ?_, fun h => absurd h0 h⟩
    · rcases hsl with e | e <;> rw [e] <;> rfl
    · rw [h0]
      rcases hsl with e | e <;> rw [e, stands_iff] <;> decide
    · rw [isUrl_iff]
      rcases hsl with e | e <;> rw [e] <;> decide
  · have hi : initialSlashes q ++ ['/'].intercalate f = (initialSlashes q ++ ['/'].intercalate f.dropLast) ++ '/' :: f.getLast hne := by
      conv => lhs; rw [← List.dropLast_concat_getLast hne, intercalate_concat h0]
      simp
    have hg : (initialSlashes q ++ ['/'].intercalate f.dropLast).getLast? ≠ some '/' := by
      have h1 := getLast_intercalate h0 hpr'
      rw [List.getLast?_append]
      cases h2 : (['/'].intercalate f.dropLast).getLast? with
      | none =>
        exfalso
        rw [List.getLast?_eq_none_iff] at h2
        cases h3 : f.dropLast with
        | nil => exact h0 h3
        | cons x l =>
          rw [h3] at h2 hpr'
          have := head_intercalate (ps := l) (hpr' x (by simp)).1
          rw [h2] at this
          have hx := (hpr' x (by simp)).1
          cases x with
          | nil => exact hx rfl
          | cons _ _ => cases this
      | some c => rw [h2] at h1; exact h1.1
    have hd : dirName ((initialSlashes q ++ ['/'].intercalate f.dropLast) ++ '/' :: f.getLast hne) =
        initialSlashes q ++ ['/'].intercalate f.dropLast := by
      unfold dirName
      simp only [upToSlash_concat hlast]
      rw [if_pos, rstrip_slash hg]
      refine ⟨by simp, ?_⟩
      intro hall
      rw [List.all_eq_true] at hall
      cases h2 : (initialSlashes q ++ ['/'].intercalate f.dropLast).getLast? with
      | none =>
        rw [List.getLast?_eq_none_iff] at h2
        rcases hsl with e | e <;> rw [e] at h2 <;> cases h2
      | some c =>
        have := hall c (List.mem_append_left _ (List.mem_of_getLast? h2))
        rw [h2] at hg
        exact hg (by simpa using this)
    have habs : Absolute (initialSlashes q ++ ['/'].intercalate f.dropLast) := by
      rcases hsl with e | e <;> rw [e] <;> rfl
    rw [hi, hd]
    refine ⟨habs, ?_, ?_, fun _ => ⟨habs, hg⟩⟩
    · rw [stands_iff, if_pos (show List.head? _ = _ from habs)]
      have hsplit := splitOn_intercalate h0 fun x hx => (hpr' x hx).2
      have : ∀ t : Str, splitOn '/' ('/' :: t) = [] :: splitOn '/' t := fun t => splitOn_append [] t
      have hdown := foldl_down (l := f.dropLast) (fun x hx => hpr x (List.dropLast_subset _ hx)) []
      rcases hsl with e | e <;> rw [e]
      · show _ = (splitOn '/' ('/' :: ['/'].intercalate f.dropLast)).foldl goTo []
        rw [this, hsplit, List.foldl_cons, goTo_skip, hdown]; rfl
      · show _ = (splitOn '/' ('/' :: '/' :: ['/'].intercalate f.dropLast)).foldl goTo []
        rw [this, this, hsplit, List.foldl_cons, List.foldl_cons, goTo_skip, goTo_skip, hdown]; rfl
    · rintro ⟨a, b, h⟩
      have hno := slash_runs hpr'
      generalize ['/'].intercalate f.dropLast = t at h hno
      have key : ∀ pre : Str, (∀ c ∈ pre, c = '/') → ∀ a, pre ++ t = a ++ ':' :: '/' :: '/' :: b → False := by
        intro pre
        induction pre with
        | nil => intro _ a h; exact hno ⟨a ++ [':'], b, by rw [← List.nil_append t, h]; simp⟩
        | cons c pre ih =>
          intro hc a h
          cases a with
          | nil =>
            injection h with h _
            rw [hc c (by simp)] at h
            exact absurd h (by decide)
          | cons _ a =>
            injection h with _ h
            exact ih (fun c hc' => hc c (by simp [hc'])) a h
      rcases hsl with e | e <;> rw [e] at h
      · exact key py"/" (by simp) a (by rw [h]; simp)
      · exact key py"//" (by simp) a (by rw [h]; simp)

theorem directory_url {pre name : Str} (hn : '/' ∉ name) (hp : pre.getLast? ≠ some '/') (hne : pre ≠ []) : dirName (pre ++ '/' :: name) = pre := by
  unfold dirName
  simp only [upToSlash_concat hn]
  rw [if_pos, rstrip_slash hp]
  refine ⟨by simp, ?_⟩
  intro hall
  rw [List.all_eq_true] at hall
  cases h2 : pre.getLast? with
  | none => rw [List.getLast?_eq_none_iff] at h2; exact hne h2
  | some c =>
    have := hall c (List.mem_append_left _ (List.mem_of_getLast? h2))
    rw [h2] at hp
    exact hp (by simpa using this)

/-- **C118 (success).** `xsd2py` and `wsdl2py` end with 0 only if there is code for what they have read, and then the code, without white space
at its ends, is all that the output file holds, or is added to the standard output; nothing else changes.  Locations in a document are seen from
the directory of its file, in the standard input from the working directory, and at a URL from the URL up to its last slash, without it. -/
theorem C118_written (hw : Absolute wd) (hs : StandsFor [] wd w) (d' : Disk)
    (h : codeMain wd writable get missing generate stdin d input output = (d', .exit 0)) :
    ∃ out xml cwd code text, OutputOf w output out ∧ InputOf w get stdin d out input xml ∧ generate xml cwd = .ok code ∧
      (¬ IsUrl input → ∀ f, StandsFor w input f → f ≠ [] → DirOf f cwd) ∧
      (∀ pre name, IsUrl input → input = pre ++ '/' :: name → '/' ∉ name → pre.getLast? ≠ some '/' → pre ≠ [] → cwd = pre) ∧
      WithoutEnds code text ∧ (out = none → d'.file = d.file ∧ d'.stdout = d.stdout ++ text) ∧
      ∀ g, out = some g → d'.file g = some text ∧ OnlyFile g d d' := by
  unfold codeMain at h
  split at h
  · injection h with _ h; cases h
  · rename_i d1 out ho
    obtain ⟨o1, o2⟩ := openOutput_ok hw hs ho
    split at h
    · injection h with _ h; cases h
    · rename_i xml hx
      simp only at h
      split at h
      · injection h with _ h; cases h
      · rename_i code hc
        injection h with h _
        subst h
        refine ⟨out, xml, _, code, _, o1, input_ok hw hs o2 hx, hc, ?_, ?_, stripBytes_spec code, ?_, ?_⟩
        · intro hu f hf hne
          rw [isUrl_iff] at hu
          rw [if_neg hu]
          exact directory_of hw hs hf hne
        · rintro pre name hu rfl hn hp hne
          rw [isUrl_iff] at hu
          rw [if_pos hu]
          exact directory_url hn hp hne
        · rintro rfl
          rw [o2.1 rfl]
          exact ⟨rfl, rfl⟩
        · rintro g rfl
          rw [(o2.2 g rfl).2]
          refine ⟨by simp [writeOutput, Disk.set], rfl, fun f hf => by simp [writeOutput, Disk.set, hf]⟩

/-- **C118 (failure).** If they raise an exception, because the input cannot be read or there is no code for it, the output file is empty,
whatever it was before. -/
theorem C118_emptied (hw : Absolute wd) (hs : StandsFor [] wd w) (d' : Disk) (e : Exn)
    (h : codeMain wd writable get missing generate stdin d input output = (d', .raised e)) :
    ∃ out, OutputOf w output out ∧ (out = none → d' = d) ∧ ∀ g, out = some g → d'.file g = some [] ∧ OnlyFile g d d' := by
  unfold codeMain at h
  have key : ∀ {d1 out}, openOutput wd writable d output = some (d1, out) → d' = d1 →
      ∃ out, OutputOf w output out ∧ (out = none → d' = d) ∧ ∀ g, out = some g → d'.file g = some [] ∧ OnlyFile g d d' := by
    rintro d1 out ho rfl
    obtain ⟨o1, o2⟩ := openOutput_ok hw hs ho
    refine ⟨out, o1, o2.1, fun g hg => ?_⟩
    rw [(o2.2 g hg).2]
    exact ⟨by simp [Disk.set], rfl, fun f hf => by simp [Disk.set, hf]⟩
  split at h
  · injection h with _ h; cases h
  · rename_i d1 out ho
    split at h
    · injection h with h _
      exact key ho h.symm
    · simp only at h
      split at h
      · injection h with h _
        exact key ho h.symm
      · injection h with _ h; cases h

/-- **C118 (refused).** If the output file cannot be opened, they end with 2 and nothing is changed. -/
theorem C118_refused (hw : Absolute wd) (hs : StandsFor [] wd w) (p : Str) (g : List Str) (hp : p ≠ py"-") (hg : StandsFor w p g)
    (hn : writable g = false) : codeMain wd writable get missing generate stdin d input (some p) = (d, .exit 2) := by
  have : absParts wd p = g := stands_unique (rooted_of_stands hw hs ▸ stands_absParts hw) hg
  simp [codeMain, openOutput, hp, this, hn]

/-- **C118 (input and output).** A program that is asked to write to the file it reads never sees the text of the file: it reads the empty text, and
if there is no code for that, the file is lost. -/
theorem C118_same (hw : Absolute wd) (hs : StandsFor [] wd w) (p : Str) (g : List Str) (hi : input ≠ py"-") (hu : ¬ IsUrl input)
    (hp : p ≠ py"-") (hg : StandsFor w p g) (hg' : StandsFor w input g) (hwr : writable g = true) (e : Exn) (hgen : ∀ cwd, generate [] cwd = .error e) :
    ∃ d', codeMain wd writable get missing generate stdin d input (some p) = (d', .raised e) ∧ d'.file g = some [] := by
  have h1 : absParts wd p = g := stands_unique (rooted_of_stands hw hs ▸ stands_absParts hw) hg
  have h2 : absParts wd input = g := stands_unique (rooted_of_stands hw hs ▸ stands_absParts hw) hg'
  rw [isUrl_iff] at hu
  refine ⟨d.set g [], ?_, by simp [Disk.set]⟩
  simp [codeMain, openOutput, hp, h1, hwr, hi, openDocument, hu, h2, Disk.set, hgen]

section
variable {V : Type} {load : Str → Except Exn (List (Str × V))} {name : Str} {document : V → Except Exn Str} {module : Str}

/-- **C118 (modules).** `py2xsd` and `py2wsdl` end with 0 only if the module has a variable `Schema` or `SERVICE` with a document; otherwise the output
file is empty, or cannot be opened and nothing is changed. -/
theorem C118_module (hw : Absolute wd) (hs : StandsFor [] wd w) (d' : Disk) (r : Ended)
    (h : moduleMain wd writable missing load name document d module output = (d', r)) :
    (r = .exit 2 ∧ d' = d ∧ ∃ p g, output = some p ∧ StandsFor w p g ∧ writable g = false) ∨
    ∃ out, OutputOf w output out ∧
      ((∃ f text vars v t, StandsFor w module f ∧ (out ≠ some f → d.file f = some text) ∧ (out = some f → text = []) ∧ load text = .ok vars ∧
          (name, v) ∈ vars ∧ document v = .ok t ∧ r = .exit 0 ∧ (out = none → d'.file = d.file ∧ d'.stdout = d.stdout ++ t) ∧
          ∀ g, out = some g → d'.file g = some t ∧ OnlyFile g d d') ∨
       ((∃ e, r = .raised e) ∧ (out = none → d' = d) ∧ ∀ g, out = some g → d'.file g = some [] ∧ OnlyFile g d d')) := by
  unfold moduleMain at h
  have hst : ∀ p, StandsFor w p (absParts wd p) := fun p => rooted_of_stands hw hs ▸ stands_absParts hw
  split at h
  · rename_i ho
    injection h with h1 h2
    subst h1 h2
    refine .inl ⟨rfl, rfl, ?_⟩
    unfold openOutput at ho
    split at ho
    · cases ho
    · rename_i p
      split at ho
      · cases ho
      · split at ho
        · cases ho
        · rename_i hn
          exact ⟨p, _, rfl, hst p, by simpa using hn⟩
  · rename_i d1 out ho
    obtain ⟨o1, o2, o3⟩ := openOutput_ok hw hs ho
    refine .inr ⟨out, o1, ?_⟩
    have bad : ∀ e, (d1, Ended.raised e) = (d', r) → (∃ e, r = .raised e) ∧ (out = none → d' = d) ∧
        ∀ g, out = some g → d'.file g = some [] ∧ OnlyFile g d d' := by
      intro e h
      injection h with h1 h2
      subst h1 h2
      refine ⟨⟨e, rfl⟩, o2, fun g hg => ?_⟩
      rw [(o3 g hg).2]
      exact ⟨by simp [Disk.set], rfl, fun f hf => by simp [Disk.set, hf]⟩
    split at h
    · exact .inr (bad _ h)
    · rename_i text ht
      split at h
      · exact .inr (bad _ h)
      · rename_i vars hl
        split at h
        · exact .inr (bad _ h)
        · rename_i v hv
          split at h
          · exact .inr (bad _ h)
          · rename_i t hd
            injection h with h1 h2
            subst h1 h2
            refine .inl ⟨_, text, vars, v.2, t, hst module, ?_, ?_, hl, ?_, hd, rfl, ?_, ?_⟩
            · intro hne
              cases out with
              | none => rw [o2 rfl] at ht; exact ht
              | some g =>
                rw [(o3 g rfl).2] at ht
                simp only [Disk.set] at ht
                rw [if_neg (fun e => hne (by rw [e]))] at ht
                exact ht
            · intro hg
              rw [(o3 _ hg).2] at ht
              simp only [Disk.set, if_true] at ht
              injection ht with ht
              exact ht.symm
            · have h1 := List.find?_some hv
              have h2 := List.mem_of_find?_eq_some hv
              have h1 : v.1 = name := by simpa using h1
              rw [← h1]
              exact h2
            · rintro rfl
              rw [o2 rfl]
              exact ⟨rfl, rfl⟩
            · rintro g rfl
              rw [(o3 g rfl).2]
              exact ⟨by simp [writeOutput, Disk.set], rfl, fun f hf => by simp [writeOutput, Disk.set, hf]⟩

theorem execFiles_env {limit : Nat} {l : List FileCode} : ∀ {vars : SchemaVars} {env : PyEnv} {x}, execFiles limit vars env l = .ok x →
    ∀ p ∈ x.1, p ∈ env ∨ ∃ c ∈ l, p.1 ∈ c.module.classes.map (·.name) := by
  induction l with
  | nil =>
    intro vars env x h p hp
    simp only [execFiles] at h
    injection h with h; subst h
    exact .inl hp
  | cons c l ih =>
    intro vars env x h p hp
    simp only [execFiles] at h
    obtain ⟨r1, h1, h⟩ := bindI h
    obtain ⟨s1, h2, h⟩ := bindI h
    injection h with h; subst h
    rcases ih h2 p hp with hp | ⟨c', hc', hn⟩
    · have : ∃ e, execClasses env c.module.classes = .ok e ∧ r1.1 = e := by
        unfold execFile at h1
        obtain ⟨m, hm, h1⟩ := bindI h1
        unfold execModule at hm
        obtain ⟨_, hm⟩ := seqI hm
        obtain ⟨e, he, hm⟩ := bindI hm
        obtain ⟨g, hg, hm⟩ := bindI hm
        injection hm with hm; subst hm
        refine ⟨e, he, ?_⟩
        split at h1
        · injection h1 with h1; subst h1; rfl
        · obtain ⟨loc, _, h1⟩ := bindI h1
          injection h1 with h1; subst h1; rfl
      obtain ⟨e, he, hr⟩ := this
      rw [hr] at hp
      rcases execClasses_names he p hp with h | h
      · exact .inl h
      · exact .inr ⟨c, by simp, h⟩
    · exact .inr ⟨c', List.mem_cons_of_mem _ hc', hn⟩

/-- **C118 (one after the other).** `py2xsd` cannot be used with what `xsd2py` writes: the schemas of a generated module have other names than `Schema`,
so AttributeError is raised, unless a type of a document has this name. -/
theorem C118_chain {base : Str} {b : List Str} {read : Str → Except Exn DFile} {files : List Str → Option DFile} {root : DFile}
    {urljoin : Str → Str → Str} {netlocOk : Str → Bool} {digest : Str → Str}
    (hd : Documents base b read files root) (n : Nat) (parent : Option Str) (r)
    (h : filesCode wd urljoin netlocOk digest read base n parent base [] [] [] root = .ok r) (limit : Nat) (x)
    (hx : execFiles limit [] [] r.1 = .ok x) (hcls : ∀ c ∈ r.1, ∀ k ∈ c.module.classes, k.name ≠ py"Schema")
    (vars : List (Str × V)) (hvars : ∀ v, (py"Schema", v) ∈ vars → (∃ k, (py"Schema", k) ∈ x.1) ∨ ∃ s, (py"Schema", s) ∈ x.2.1)
    (text : Str) (hl : load text = .ok vars) (hw : Absolute wd) (hs : StandsFor [] wd w) (f : List Str) (hm : StandsFor w module f)
    (hf : d.file f = some text) :
    moduleMain wd writable missing load py"Schema" document d module none = (d, .raised .attributeError) := by
  rw [stands_unique hm (rooted_of_stands hw hs ▸ stands_absParts hw)] at hf
  have hno : vars.find? (fun p => decide (p.1 = py"Schema")) = none := by
    rw [List.find?_eq_none]
    rintro ⟨k, v⟩ hk he
    have he : k = py"Schema" := by simpa using he
    subst he
    rcases hvars v hk with ⟨k, hk⟩ | ⟨s, hs⟩
    · rcases execFiles_env hx _ hk with h | ⟨c, hc, hn⟩
      · cases h
      · obtain ⟨kd, hkd, hn⟩ := List.mem_map.1 hn
        exact hcls c hc kd hkd hn
    · rcases (execFiles_vars hx).1 _ hs with h | ⟨c, hc, ha, _⟩
      · cases h
      · obtain ⟨L, cs, last, e, _, _, _, h5, h6, h7⟩ := C117_code hd n parent r h
        have len : ∀ t, varFor digest t ≠ py"Schema" := fun t h => by
          have := congrArg List.length h
          simp [varFor] at this
        rw [e] at hc
        rcases List.mem_append.1 hc with hc | hc
        · obtain ⟨f, _, d, loc, u, _, hcode, _, hsec⟩ := h5.mem_right hc
          rcases ha with ha | ⟨u', ha⟩
          · obtain ⟨ns, _, _, hv⟩ := hcode.namespaced
            exact len ns (hv.symm.trans ha.symm)
          · rw [hsec] at ha
            injection ha with ha
            injection ha with _ ha
            exact len loc ha
        · have hc : c = last := by simpa using hc
          subst hc
          rcases ha with ha | ⟨u', ha⟩
          · obtain ⟨ns, _, _, hv⟩ := h6.namespaced
            exact len ns (hv.symm.trans ha.symm)
          · rw [h7] at ha; cases ha
  simp [moduleMain, openOutput, hf, hl, hno]

end

end

/-! ### Examples -/

namespace ExMain

def disk : Disk := { file := fun f =>
  if f = [py"home", py"a.xsd"] then some py"<schema/>" else if f = [py"home", py"out", py"a.py"] then some py"old" else none }

def gen (xml cwd : Str) : Except Exn Str := if xml = [] then .error .xmlSyntaxError else .ok (py"\n\n" ++ xml ++ py"|" ++ cwd ++ py"\n")

/-- The document is read from another directory, and the code replaces what was in the file. -/
example : let r := codeMain py"/home/out" (fun _ => true) (fun _ => .error (.user 1)) (.user 2) gen [] disk py"../a.xsd" (some py"a.py")
    r.2 = .exit 0 ∧ r.1.file [py"home", py"out", py"a.py"] = some py"<schema/>|/home" := by decide +kernel

/-- A file that is missing: what the output file held is lost. -/
example : let r := codeMain py"/home/out" (fun _ => true) (fun _ => .error (.user 1)) (.user 2) gen [] disk py"b.xsd" (some py"./a.py")
    r.2 = .raised (.user 2) ∧ r.1.file [py"home", py"out", py"a.py"] = some [] := by decide +kernel

/-- The same file for input and output: the document is lost. -/
example : let r := codeMain py"/home/out" (fun _ => true) (fun _ => .error (.user 1)) (.user 2) gen [] disk py"../a.xsd" (some py"/home/a.xsd")
    r.2 = .raised .xmlSyntaxError ∧ r.1.file [py"home", py"a.xsd"] = some [] := by decide +kernel

/-- The standard input is seen from the working directory. -/
example : (codeMain py"/home/out" (fun _ => true) (fun _ => .error (.user 1)) (.user 2) gen py"<x/>" disk py"-" none).1.stdout =
    py"<x/>|/home/out" := by decide +kernel

/-- A URL. -/
example : (codeMain py"/home/out" (fun _ => true) (fun _ => .ok py"<y/>") (.user 2) gen [] disk py"http://h/d/a.xsd" (some py"-")).1.stdout =
    py"<y/>|http://h/d" := by decide +kernel

/-- A module with the variable, and one without. -/
example : let load : Str → Except Exn (List (Str × Nat)) := fun t => .ok (if t = py"old" then [(py"Schema", 7)] else [(py"Schema_12345", 7)])
    let doc : Nat → Except Exn Str := fun n => .ok (natStr n)
    (moduleMain py"/home" (fun _ => true) (.user 2) load py"Schema" doc disk py"out/a.py" none).1.stdout = py"7" ∧
    (moduleMain py"/home" (fun _ => true) (.user 2) load py"Schema" doc disk py"a.xsd" none).2 = .raised .attributeError := by decide +kernel

end ExMain

end Soapfish
