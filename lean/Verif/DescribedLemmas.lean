import Verif.ServiceExec
import Verif.Spec.Described
/-
Lemmas about code generated from arbitrary WSDL documents.
-/
set_option maxRecDepth 8000
namespace Soapfish

/-! ### Literals -/

theorem escapeChar_mem {c d : Char} (h : escapeChar c = some d) : (c, d) ∈ shortEscapes := by
  unfold escapeChar at h
  split at h <;> first | (cases h; decide) | cases h

theorem escapeChar_none {c : Char} (h : escapeChar c = none) : c ∉ shortEscapes.map (·.1) := by
  intro hm
  simp only [shortEscapes, List.map_cons, List.map_nil, List.mem_cons, List.not_mem_nil, or_false] at hm
  rcases hm with rfl | rfl | rfl | rfl | rfl | rfl | rfl | rfl | rfl | rfl <;> cases h

theorem means_of {q : Char} : ∀ {s v : Str}, textValue q s = some v → Means q s v := by
  intro s
  fun_induction textValue q s with
  | case1 => intro v h; cases h; exact .nil
  | case2 => intro v h; cases h
  | case3 c r d hd ih =>
    intro v h
    obtain ⟨w, hw, rfl⟩ := Option.map_eq_some_iff.1 h
    exact .escape (escapeChar_mem hd) (ih hw)
  | case4 => intro v h; cases h
  | case5 c r hd hl ih =>
    intro v h
    obtain ⟨w, hw, rfl⟩ := Option.map_eq_some_iff.1 h
    have hl' : longEscape c = false := by simpa using hl
    simp only [longEscape, isDigitC, Bool.or_eq_false_iff, decide_eq_false_iff_not] at hl'
    obtain ⟨⟨⟨⟨⟨⟨h1, h2⟩, h3⟩, h4⟩, h5⟩, h6⟩, h7⟩ := hl'
    refine .other (escapeChar_none hd) ?_ h1 (ih hw)
    simp [h2, h3, h4, h5, h6, h7]
  | case6 => intro v h; cases h
  | case7 c r hc hc' he ih =>
    intro v h
    obtain ⟨w, hw, rfl⟩ := Option.map_eq_some_iff.1 h
    have he' : endsLiteral q c = false := by simpa using he
    simp only [endsLiteral, Bool.or_eq_false_iff, decide_eq_false_iff_not] at he'
    obtain ⟨⟨⟨h1, h2⟩, h3⟩, h4⟩ := he'
    refine .char h1 ?_ h2 h3 h4 (ih hw)
    rintro rfl
    cases r with
    | nil => exact hc rfl rfl
    | cons c r => exact hc' c r rfl rfl

theorem literal_means {t v : Str} (h : literal (textValue '\'' t) = .ok v) : Means '\'' t v := by
  cases ht : textValue '\'' t with
  | none => rw [ht] at h; cases h
  | some w =>
    rw [ht] at h
    injection h with h
    exact h ▸ means_of ht

theorem literal_plain_eq {t v : Str} (h : literal (textValue '\'' t) = .ok v) (hp : PlainText '\'' t) : v = t := by
  rw [literal_plain hp] at h
  exact (Except.ok.inj h).symm

/-! ### Do blocks -/

theorem bindI {α β ε : Type} {x : Except ε α} {f : α → Except ε β} {b : β} (h : (x >>= f) = .ok b) :
    ∃ a, x = .ok a ∧ f a = .ok b := by
  cases x with
  | error e => cases h
  | ok a => exact ⟨a, rfl, h⟩

theorem seqI {β ε : Type} {x : Except ε Unit} {f : Unit → Except ε β} {b : β} (h : (x >>= f) = .ok b) :
    x = .ok () ∧ f () = .ok b := by
  obtain ⟨⟨⟩, h1, h2⟩ := bindI h
  exact ⟨h1, h2⟩

/-! ### Reading descriptions -/

theorem readStr_some {v : Val} {n s : Str} (h : readStr v n = some s) : HasText v n s := by
  unfold readStr at h
  rw [readAttr_eq] at h
  unfold HasText
  split at h
  · rename_i hr; injection h with h; subst h; exact hr
  · cases h

theorem readStr_none {v : Val} {n s : Str} (h : readStr v n = none) : ¬ HasText v n s := by
  intro hs
  rw [readStr_of hs] at h
  cases h

theorem readList_items (v : Val) (n : Str) : ItemsOf v n (readList v n) := by
  unfold readList
  rw [readAttr_eq]
  split
  · rename_i h; exact .inl ⟨_, h⟩
  · rename_i h
    refine .inr ⟨rfl, ?_⟩
    rintro l ⟨t, hl⟩
    exact h t l hl

theorem readList_cons {v : Val} {n : Str} {a : Val} {l : List Val} (h : readList v n = a :: l) : HasItems v n (a :: l) := by
  rcases readList_items v n with h' | ⟨h', _⟩
  · rw [h] at h'; exact h'
  · rw [h] at h'; cases h'

theorem readChild_attr {v w : Val} {n : Str} (h : readChild v n = some w) : v.attr n = some w := by
  unfold readChild at h
  rw [readAttr_eq] at h
  split at h
  · rename_i hr; injection h with h; subst h; exact hr
  · cases h

theorem attr_child {v w u : Val} {n k : Str} (h : v.attr n = some w) (hw : w.attr k = some u) : readChild v n = some w :=
  readChild_of h hw

theorem findNamed_ok {l : List Val} {n : Str} {item : Val} (h : findNamed l n = .ok item) :
    ∃ before after, l = before ++ item :: after ∧ HasText item py"name" n ∧ ∀ b ∈ before, ¬ HasText b py"name" n := by
  induction l with
  | nil => cases h
  | cons a l ih =>
    obtain ⟨w, hw, h⟩ := bindI h
    rw [getA_iff] at hw
    split at h
    · rename_i s
      split at h
      · rename_i hs
        injection h with h
        subst h hs
        exact ⟨[], l, rfl, hw, by simp⟩
      · rename_i hs
        obtain ⟨b, c, rfl, h1, h2⟩ := ih h
        refine ⟨a :: b, c, rfl, h1, ?_⟩
        intro x hx
        rcases List.mem_cons.1 hx with rfl | hx
        · intro hx
          unfold HasText at hx
          rw [hw] at hx
          injection hx with hx
          injection hx with hx
          injection hx with hx
          exact hs hx
        · exact h2 x hx
    · rename_i hs
      obtain ⟨b, c, rfl, h1, h2⟩ := ih h
      refine ⟨a :: b, c, rfl, h1, ?_⟩
      intro x hx
      rcases List.mem_cons.1 hx with rfl | hx
      · intro hx
        unfold HasText at hx
        rw [hw] at hx
        injection hx with hx
        exact hs _ hx
      · exact h2 x hx

theorem getByName_ok {items name item : Val} (h : getByName items name = .ok item) :
    ∃ t l s before after, items = .list t l ∧ name = .atom (.str s) ∧ l = before ++ item :: after ∧
      HasText item py"name" (lastPart ':' s) ∧ ∀ b ∈ before, ¬ HasText b py"name" (lastPart ':' s) := by
  unfold getByName at h
  split at h
  · obtain ⟨b, c, h1, h2, h3⟩ := findNamed_ok h
    exact ⟨_, _, _, b, c, rfl, rfl, h1, h2, h3⟩
  · cases h
  · cases h

theorem refers_of {v w item : Val} {l r : Str} (h : (do getByName (← v.getA l) (← w.getA r)) = .ok item) :
    ∃ ref, HasText w r ref ∧ NamesItem v l ref item := by
  obtain ⟨is, h1, h⟩ := bindI h
  obtain ⟨n, h2, h⟩ := bindI h
  rw [getA_iff] at h1 h2
  obtain ⟨t, l', s, b, c, rfl, rfl, rfl, h3, h4⟩ := getByName_ok h
  exact ⟨s, h2, b, c, _, ⟨t, h1⟩, lastPart_after s, h3, h4⟩

theorem append_unique {α : Type} {P : α → Prop} {b b' c c' : List α} {x y : α} (h : b ++ x :: c = b' ++ y :: c') (hx : P x)
    (hy : P y) (hb : ∀ a ∈ b, ¬ P a) (hb' : ∀ a ∈ b', ¬ P a) : x = y := by
  induction b generalizing b' with
  | nil =>
    cases b' with
    | nil => injection h
    | cons a b' =>
      injection h with h _
      exact absurd hx (hb' x (h ▸ List.mem_cons_self ..))
  | cons a b ih =>
    cases b' with
    | nil =>
      injection h with h _
      exact absurd hy (hb y (h ▸ List.mem_cons_self ..))
    | cons a' b' =>
      injection h with _ h
      exact ih h (fun z hz => hb z (List.mem_cons_of_mem _ hz)) fun z hz => hb' z (List.mem_cons_of_mem _ hz)

theorem HasText.unique {v : Val} {n a b : Str} (ha : HasText v n a) (hb : HasText v n b) : a = b := by
  unfold HasText at ha hb
  rw [ha] at hb
  injection hb with hb
  injection hb with hb
  injection hb

theorem HasItems.unique {v : Val} {n : Str} {a b : List Val} (ha : HasItems v n a) (hb : HasItems v n b) : a = b := by
  obtain ⟨_, ha⟩ := ha
  obtain ⟨_, hb⟩ := hb
  rw [ha] at hb
  injection hb with hb
  injection hb

theorem NamesItem.unique {v a b : Val} {l r : Str} (ha : NamesItem v l r a) (hb : NamesItem v l r b) : a = b := by
  obtain ⟨b1, c1, n1, h1, h2, h3, h4⟩ := ha
  obtain ⟨b2, c2, n2, k1, k2, k3, k4⟩ := hb
  cases AfterColon.unique h2 k2
  exact append_unique (P := fun x => HasText x py"name" n1) (h1.unique k1) h3 k3 h4 k4

theorem MessageOf.unique {d binding operation m m' : Val} {x : Str} (h : MessageOf d binding operation x m)
    (h' : MessageOf d binding operation x m') : m = m' := by
  obtain ⟨t, n, r, p, o, u, h1, h2, h3, h4, h5, h6, h7⟩ := h
  obtain ⟨t', n', r', p', o', u', k1, k2, k3, k4, k5, k6, k7⟩ := h'
  cases h1.unique k1
  cases h2.unique k2
  cases h3.unique k3
  cases h4.unique k4
  rw [h5] at k5
  injection k5 with k5
  subst k5
  cases h6.unique k6
  exact h7.unique k7

/-! ### Messages -/

theorem message_ok {d binding operation m : Val} {x : Str} (h : getMessageObject d binding operation x = .ok m) :
    (m = Val.none ∧ ∀ m', ¬ MessageOf d binding operation x m') ∨
      (m.isNone = false ∧ MessageOf d binding operation x m) := by
  obtain ⟨pts, h1, h⟩ := bindI h
  obtain ⟨ty, h2, h⟩ := bindI h
  obtain ⟨pt, h3, h⟩ := bindI h
  obtain ⟨ops, h4, h⟩ := bindI h
  obtain ⟨nm, h5, h⟩ := bindI h
  obtain ⟨pto, h6, h⟩ := bindI h
  obtain ⟨t, ht, hpt⟩ := refers_of (v := d) (w := binding) (l := py"portTypes") (r := py"type") (item := pt)
    (by rw [h1, h2]; exact h3)
  obtain ⟨n, hn, hpo⟩ := refers_of (v := pt) (w := operation) (l := py"operations") (r := py"name") (item := pto)
    (by rw [h4, h5]; exact h6)
  have hno : (∀ u, pto.attr x = some u → ∀ r, ¬ HasText u py"message" r) → ∀ m', ¬ MessageOf d binding operation x m' := by
    rintro hno m' ⟨t', n', r', p', o', u', k1, k2, k3, k4, k5, k6, k7⟩
    cases ht.unique k1
    cases hpt.unique k2
    cases hn.unique k3
    cases hpo.unique k4
    exact hno u' k5 r' k6
  split at h
  · rename_i e he
    injection h with h
    refine .inl ⟨h.symm, hno ?_⟩
    intro u hu
    rw [← getA_iff] at hu
    rw [hu] at he
    cases he
  · rename_i obj hobj
    rw [getA_iff] at hobj
    split at h
    · rename_i hnone
      injection h with h
      refine .inl ⟨h.symm, hno ?_⟩
      intro u hu r hr
      rw [hobj] at hu
      injection hu with hu
      subst hu
      unfold HasText at hr
      cases obj with
      | atom a => cases hr
      | inst => cases hnone
      | _ => cases hr
    · obtain ⟨r, hr, hm⟩ := refers_of h
      refine .inr ⟨?_, t, n, r, pt, pto, obj, ht, hpt, hn, hpo, hobj, hr, hm⟩
      obtain ⟨_, _, l, _, _, hl, _⟩ := hm
      unfold HasText at hl
      cases m with
      | atom a => cases hl
      | _ => rfl

/-! ### Parts -/

theorem onlyPart_ok {m part : Val} (h : onlyPart m = .ok part) : m.isNone = false ∧ HasItems m py"parts" [part] := by
  unfold onlyPart at h
  split at h
  · cases h
  · rename_i hn
    refine ⟨by simpa using hn, ?_⟩
    split at h
    · rename_i p hp
      injection h with h
      subst h
      exact readList_cons hp
    · cases h

theorem localPart_some {s : Option Str} {n : Str} (h : localPart s = some n) : ∃ r, s = some r ∧ r ≠ [] ∧ AfterColon r n := by
  unfold localPart at h
  obtain ⟨r, hr, rfl⟩ := Option.map_eq_some_iff.1 h
  unfold nonEmpty at hr
  split at hr
  · injection hr with hr
    subst hr
    exact ⟨_, rfl, by simp, lastPart_after _⟩
  · cases hr

theorem nonEmpty_some {s : Option Str} {n : Str} (h : nonEmpty s = some n) : s = some n ∧ n ≠ [] := by
  unfold nonEmpty at h
  split at h
  · injection h with h
    subst h
    exact ⟨rfl, by simp⟩
  · cases h

theorem nonEmpty_none {n : Str} {s : Option Str} (h : nonEmpty s = none) (hs : s = some n) : n = [] := by
  subst hs
  cases n with
  | nil => rfl
  | cons => cases h

/-- The name a function has for its parameter. -/
theorem partElement_ok {m : Val} {n : Str} (h : (partElement m) = .ok (some n)) : ∃ part, PartElement m part n := by
  obtain ⟨part, hp, h⟩ := bindI h
  injection h with h
  obtain ⟨r, hr, hne, ha⟩ := localPart_some h
  exact ⟨part, r, (onlyPart_ok hp).2, readStr_some hr, hne, ha⟩

theorem isIdent_not_none {s : Option Str} (h : isIdent (textOf s) = true) : ∃ t, s = some t ∧ isIdent t = true := by
  cases s with
  | none => exact absurd h (by decide)
  | some t => exact ⟨t, rfl, h⟩

theorem isIdent_function {n : Str} (h : isIdent n = true) : FunctionName n := by
  cases n with
  | nil => cases h
  | cons c cs =>
    simp only [isIdent, Bool.and_eq_true, List.all_eq_true, Bool.not_eq_true', decide_eq_false_iff_not] at h
    obtain ⟨⟨h1, h2⟩, h3⟩ := h
    have key : ∀ d, (isLetterC d || isDigitC d) = true → IdentChar d := by
      intro d hd
      simp only [isLetterC, isDigitC, Bool.or_eq_true, decide_eq_true_eq] at hd
      unfold IdentChar
      rcases hd with (h | h | h) | h
      · exact .inl h
      · exact .inr (.inl h)
      · exact .inr (.inr (.inl h))
      · exact .inr (.inr (.inr h))
    refine ⟨⟨c, cs, rfl, key c (by simp [h1]), ?_, fun d hd => key d (h2 d hd)⟩, h3⟩
    intro hd
    simp only [isLetterC, decide_eq_true_eq] at h1
    rcases h1 with h | h | h
    · exact absurd (Char.le_trans h.1 hd.2) (by decide)
    · exact absurd (Char.le_trans h.1 hd.2) (by decide)
    · subst h
      revert hd; decide

theorem checkIdent_ok {n : Str} (h : checkIdent n = .ok ()) : isIdent n = true := by
  unfold checkIdent at h
  split at h
  · assumption
  · split at h <;> cases h

theorem checkSignature_ok {l : List Str} (h : checkSignature l = .ok ()) : (∀ n ∈ l, isIdent n = true) ∧ l.Nodup := by
  obtain ⟨h1, h2⟩ := seqI h
  refine ⟨fun n hn => checkIdent_ok (forE_mem h1 n hn), ?_⟩
  split at h2
  · assumption
  · cases h2

theorem paramCode_ok {m : Val} {p : Option PyParam} (h : paramCode m = .ok p) :
    (p = none ∧ ∀ q qs, ¬ HasItems m py"parts" (q :: qs)) ∨
    (∃ part n, PartElement m part n ∧ p = some (.element n (textOf (readStr part py"name")))) ∨
    (∃ part c, HasItems m py"parts" [part] ∧ (∀ r, HasText part py"element" r → r = []) ∧ p = some (.cls c)) := by
  unfold paramCode at h
  split at h
  · rename_i hn
    injection h with h
    refine .inl ⟨h.symm, ?_⟩
    intro q qs hq
    rw [readList_of hq] at hn
    cases hn
  · obtain ⟨part, hp, h⟩ := bindI h
    have hi := (onlyPart_ok hp).2
    split at h
    · rename_i r hr
      injection h with h
      obtain ⟨hr1, hr2⟩ := nonEmpty_some hr
      refine .inr (.inl ⟨part, lastPart ':' r, ⟨r, hi, readStr_some hr1, hr2, lastPart_after r⟩, ?_⟩)
      rw [← h]
      unfold localPart
      rw [hr]
      rfl
    · rename_i hr
      obtain ⟨c, _, h⟩ := bindI h
      injection h with h
      refine .inr (.inr ⟨part, c, hi, ?_, h.symm⟩)
      intro r hs
      exact nonEmpty_none hr (readStr_of hs)

/-! ### Headers -/

theorem HeaderParts.unique {d operation : Val} {x : Str} {a b : List Val} (ha : HeaderParts d operation x a)
    (hb : HeaderParts d operation x b) : a = b := by
  obtain ⟨u, hs, h1, h2, h3⟩ := ha
  obtain ⟨u', hs', k1, k2, k3⟩ := hb
  rw [h1] at k1
  injection k1 with k1
  subst k1
  cases h2.unique k2
  clear h2 k2
  induction h3 generalizing b with
  | nil => cases k3; rfl
  | cons h _ ih =>
    cases k3 with
    | cons k ks =>
      obtain ⟨r, n, m, h1, h2, h3, h4⟩ := h
      obtain ⟨r', n', m', k1, k2, k3, k4⟩ := k
      cases h1.unique k1
      cases h2.unique k2
      cases h3.unique k3
      cases h4.unique k4
      rw [ih ks]

theorem header_ok {d operation v : Val} {x : Str} (h : getMessageHeader d operation x = .ok v) :
    (v = Val.none ∧ ∀ parts, ¬ HeaderParts d operation x parts) ∨
      ∃ parts, v = .list false parts ∧ HeaderParts d operation x parts := by
  unfold getMessageHeader at h
  split at h
  · rename_i e he
    injection h with h
    refine .inl ⟨h.symm, ?_⟩
    rintro parts ⟨u, _, hu, _⟩
    rw [← getA_iff] at hu
    rw [hu] at he
    cases he
  · rename_i obj hobj
    rw [getA_iff] at hobj
    split at h
    · rename_i hn
      injection h with h
      refine .inl ⟨h.symm, ?_⟩
      rintro parts ⟨u, hs, hu, ⟨t, hh⟩, _⟩
      rw [hobj] at hu
      injection hu with hu
      subst hu
      cases obj with
      | atom a => cases hh
      | inst => cases hn
      | _ => cases hh
    · obtain ⟨w, hw, h⟩ := bindI h
      rw [getA_iff] at hw
      split at h
      · rename_i t hs
        obtain ⟨parts, hp, h⟩ := bindI h
        injection h with h
        refine .inr ⟨parts, h.symm, obj, hs, hobj, ⟨t, hw⟩, ?_⟩
        refine (mapE_all2 hp).imp ?_
        intro hd p hp
        obtain ⟨ms, h1, hp⟩ := bindI hp
        obtain ⟨mr, h2, hp⟩ := bindI hp
        obtain ⟨m, h3, hp⟩ := bindI hp
        obtain ⟨r, hr, hm⟩ := refers_of (v := d) (w := hd) (l := py"messages") (r := py"message") (item := m)
          (by rw [h1, h2]; exact h3)
        obtain ⟨n, hn, hp⟩ := refers_of hp
        exact ⟨r, n, m, hr, hm, hn, hp⟩
      · cases h

/-- The class statement for the headers of a message. -/
theorem headerCode_ok {digest : Str → Str} {d m operation v : Val} {x : Str} {h : Option PyHeader}
    (hv : getMessageHeader d operation x = .ok v) (hc : headerCode digest d m v = .ok h) :
    (h = none ∧ ∀ parts, HeaderParts d operation x parts → parts = []) ∨
    ∃ parts name schema fields, HeaderParts d operation x parts ∧ parts ≠ [] ∧
      h = some ⟨(if m.isNone then [] else textOf (readStr m py"name")) ++ py"Headers", schema, fields⟩ ∧
      name = (if m.isNone then [] else textOf (readStr m py"name")) ∧
      All2 (fun p f => headerField p = .ok f) parts fields := by
  rcases header_ok hv with ⟨rfl, hno⟩ | ⟨parts, rfl, hp⟩
  · injection hc with hc
    exact .inl ⟨hc.symm, fun parts hp => absurd hp (hno parts)⟩
  · cases parts with
    | nil =>
      injection hc with hc
      exact .inl ⟨hc.symm, fun parts hp' => hp'.unique hp⟩
    | cons p ps =>
      obtain ⟨s, _, hc⟩ := bindI hc
      obtain ⟨fs, hf, hc⟩ := bindI hc
      injection hc with hc
      exact .inr ⟨p :: ps, _, s, fs, hp, by simp, hc.symm, rfl, mapE_all2 hf⟩

theorem find_first {α : Type} {P : α → Bool} {l : List α} {a : α} (h : l.find? P = some a) :
    ∃ before after, l = before ++ a :: after ∧ P a = true ∧ ∀ b ∈ before, P b = false := by
  induction l with
  | nil => cases h
  | cons x l ih =>
    rw [List.find?_cons] at h
    cases hx : P x with
    | true =>
      rw [hx] at h
      injection h with h
      subst h
      exact ⟨[], l, rfl, hx, by simp⟩
    | false =>
      rw [hx] at h
      obtain ⟨b, c, rfl, h1, h2⟩ := ih h
      refine ⟨x :: b, c, rfl, h1, ?_⟩
      intro y hy
      rcases List.mem_cons.1 hy with rfl | hy
      · exact hx
      · exact h2 y hy

/-- A field of a header class that was executed. -/
theorem headerField_for {g : GSchema} {part : Val} {f : Str × PyHeaderField} {r : Option (Str × GTop)}
    (h1 : headerField part = .ok f) (h2 : headerElement g f = .ok r) (hn : ∃ n, HasText part py"name" n) :
    HeaderField g part r := by
  unfold headerField at h1
  split at h1
  · rename_i e he
    injection h1 with h1
    subst h1
    obtain ⟨he1, he2⟩ := nonEmpty_some he
    have hl : localPart (readStr part py"element") = some (lastPart ':' e) := by
      unfold localPart
      rw [he]; rfl
    rw [hl] at h2
    obtain ⟨v, hv, h2⟩ := bindI h2
    refine ⟨e, lastPart ':' e, v, readStr_some he1, lastPart_after e, literal_means hv, ?_⟩
    split at h2
    · rename_i t ht
      injection h2 with h2
      subst h2
      obtain ⟨n, hn⟩ := hn
      obtain ⟨b, c, hb, hp, hno⟩ := find_first ht
      refine ⟨?_, b, c, hb, of_decide_eq_true hp, fun x hx => of_decide_eq_false (hno x hx)⟩
      show HasText part py"name" (textOf (readStr part py"name"))
      rw [readStr_of hn]
      exact hn
    · rename_i ht
      split at h2
      · injection h2 with h2
        subst h2
        intro x hx he
        have := List.find?_eq_none.1 ht x hx
        simp [he] at this
      · cases h2
  · obtain ⟨c, _, h1⟩ := bindI h1
    injection h1 with h1
    subst h1
    cases h2

end Soapfish
