import Verif.Names
import Verif.HandleLemmas
/-
Names (C68) and type references (C73) in generated code.
-/
namespace Soapfish

/-! ### C68: names -/

/-- **C68 (prefixes).** What follows the last colon; None for None and the empty text. -/
theorem C68_remove (pre last : Str) (h : ':' ∉ last) :
    removeNamespace (some (pre ++ ':' :: last)) = some last ∧
    (last ≠ [] → removeNamespace (some last) = some last) ∧
    removeNamespace none = none ∧ removeNamespace (some []) = none := by
  have key : ∀ q last' : Str, AfterColon q last' → lastPart ':' q = last' := by
    intro q last' hq
    exact AfterColon.unique (lastPart_after q) hq
  refine ⟨?_, ?_, rfl, rfl⟩
  · have : ∃ c cs, pre ++ ':' :: last = c :: cs := by cases pre <;> simp
    obtain ⟨c, cs, hc⟩ := this
    rw [hc]
    show some (lastPart ':' (c :: cs)) = _
    rw [← hc, key _ last ⟨h, .inr ⟨pre, rfl⟩⟩]
  · intro hne
    cases last with
    | nil => exact absurd rfl hne
    | cons c cs =>
      show some (lastPart ':' (c :: cs)) = _
      rw [key _ (c :: cs) ⟨h, .inl rfl⟩]

theorem lowerC_idem (c : Char) : lowerC (lowerC c) = lowerC c := by
  unfold lowerC
  by_cases h : 0x41 ≤ c.toNat ∧ c.toNat ≤ 0x5a
  · rw [if_pos h]
    have key : ∀ n : Fin 26, ¬ (0x41 ≤ (Char.ofNat (0x41 + n.val + 32)).toNat ∧ (Char.ofNat (0x41 + n.val + 32)).toNat ≤ 0x5a) := by
      decide
    have h1 := key ⟨c.toNat - 0x41, by omega⟩
    have h2 : 0x41 + (c.toNat - 0x41) + 32 = c.toNat + 32 := by omega
    simp only [h2] at h1
    rw [if_neg h1]
  · rw [if_neg h, if_neg h]

/-- **C68 (first letter).** Only the first letter changes, and not in 'QName'; the empty text is an IndexError. -/
theorem C68_uncapitalize (c : Char) (cs : Str) :
    (c :: cs ≠ py"QName" → ∃ l, uncapitalize (c :: cs) = .ok (l :: cs) ∧
      ((65 ≤ c.toNat ∧ c.toNat ≤ 90 → l.toNat = c.toNat + 32) ∧ (¬ (65 ≤ c.toNat ∧ c.toNat ≤ 90) → l = c))) ∧
    uncapitalize py"QName" = .ok py"QName" ∧ uncapitalize [] = .error .indexError := by
  refine ⟨?_, by decide, rfl⟩
  intro h
  refine ⟨lowerC c, ?_, ?_, ?_⟩
  · unfold uncapitalize
    rw [if_neg h]
  · intro hr
    unfold lowerC
    rw [if_pos hr]
    have key : ∀ n : Fin 26, (Char.ofNat (65 + n.val + 32)).toNat = 65 + n.val + 32 := by decide
    have h1 := key ⟨c.toNat - 65, by omega⟩
    have h2 : 65 + (c.toNat - 65) + 32 = c.toNat + 32 := by omega
    simp only [h2] at h1
    exact h1
  · intro hr
    unfold lowerC
    rw [if_neg hr]

/-- **C68 (again).** Doing it twice changes nothing more. -/
theorem C68_idempotent (s t : Str) (h : uncapitalize s = .ok t) : uncapitalize t = .ok t := by
  unfold uncapitalize at h
  split at h
  · rename_i hs
    injection h with h
    subst h
    unfold uncapitalize
    rw [if_pos hs]
  · split at h
    · injection h with h
      subst h
      unfold uncapitalize
      split
      · rfl
      · simp only [lowerC_idem]
    · cases h

/-- **C68 (keywords).** A field name in generated code is never a keyword: keywords get an underscore and other names
stay. -/
theorem C68_keyword (s : Str) : fixKeyword s ∉ kwlist ∧ (s ∉ kwlist → fixKeyword s = s) ∧
    (s ∈ kwlist → fixKeyword s = '_' :: s) := by
  have h0 : ∀ k ∈ kwlist, k.head? ≠ some '_' := by decide
  unfold fixKeyword
  by_cases h : s ∈ kwlist
  · simp only [h, if_true, not_true_eq_false, false_imp_iff, forall_const, and_true]
    exact fun h' => h0 _ h' rfl
  · simp [h]

/-- **C68 (clashes).** Two names become the same only if one is a keyword and the other that keyword with an
underscore. -/
theorem C68_clash (a b : Str) : fixKeyword a = fixKeyword b ↔
    a = b ∨ (a ∈ kwlist ∧ b = '_' :: a) ∨ (b ∈ kwlist ∧ a = '_' :: b) := by
  have h0 : ∀ k ∈ kwlist, k.head? ≠ some '_' := by decide
  unfold fixKeyword
  by_cases ha : a ∈ kwlist <;> by_cases hb : b ∈ kwlist
  · simp only [ha, hb, if_true, List.cons.injEq, true_and]
    constructor
    · exact .inl
    · rintro (h | h | h)
      · exact h
      · subst h; exact absurd rfl (h0 _ hb)
      · subst h; exact absurd rfl (h0 _ ha)
  · simp only [ha, hb, if_true, if_false, true_and, false_and, or_false]
    constructor
    · exact fun h => .inr h.symm
    · rintro (h | h)
      · subst h; exact absurd ha hb
      · exact h.symm
  · simp only [ha, hb, if_true, if_false, true_and, false_and, false_or]
    constructor
    · exact .inr
    · rintro (h | h)
      · subst h; exact absurd hb ha
      · exact h
  · simp [ha, hb]

example : fixKeyword py"class" = py"_class" ∧ fixKeyword py"_class" = py"_class" ∧ fixKeyword py"name" = py"name" := by
  decide
example : removeNamespace (some py"a:b:c") = some py"c" := by decide
example : uncapitalize py"SayHello" = .ok py"sayHello" := by decide

/-! ### C73: type references -/

theorem splitOn_none {s : Str} (h : ':' ∉ s) : splitOn ':' s = [s] := by
  induction s with
  | nil => rfl
  | cons c cs ih =>
    have hc : c ≠ ':' := fun e => h (by simp [e])
    unfold splitOn
    rw [if_neg hc, ih (fun e => h (by simp [e]))]

theorem splitOn_colon {p r : Str} (h : ':' ∉ p) : splitOn ':' (p ++ ':' :: r) = p :: splitOn ':' r := by
  induction p with
  | nil => simp [splitOn]
  | cons c cs ih =>
    have hc : c ≠ ':' := fun e => h (by simp [e])
    rw [List.cons_append]
    conv => lhs; unfold splitOn
    rw [if_neg hc, ih (fun e => h (by simp [e]))]

theorem splitOn_ne_nil (s : Str) : splitOn ':' s ≠ [] := by
  cases s with
  | nil => simp [splitOn]
  | cons c cs =>
    unfold splitOn
    split
    · simp
    · split <;> simp

/-- The code for the class called `name` in a namespace: `xsd` if the prefix stands for XML Schema, otherwise by name if
it has been generated already, or else lazily. -/
inductive RefersTo (X : List (Option Str)) (K : Option (List Str)) (p : Option Str) (name : Str) : Str → Prop where
  | xsd : p ∈ X → RefersTo X K p name (py"xsd." ++ name)
  | known {l} : p ∉ X → K = some l → name ∈ l → RefersTo X K p name name
  | lazy : p ∉ X → (∀ l, K = some l → name ∉ l) → RefersTo X K p name (py"__name__ + '." ++ name ++ py"'")

theorem refersTo_iff (X : List (Option Str)) (K : Option (List Str)) (p : Option Str) (name code : Str) :
    RefersTo X K p name code ↔ typeCode X K p name = code := by
  unfold typeCode
  constructor
  · intro h
    cases h with
    | xsd h => rw [if_pos h]
    | known h1 h2 h3 =>
      subst h2
      rw [if_neg h1]
      exact if_pos h3
    | lazy h1 h2 =>
      rw [if_neg h1, if_neg ?_]
      cases K with
      | none => simp
      | some l => exact h2 l rfl
  · rintro rfl
    split
    · exact .xsd ‹_›
    · split
      · rename_i h1 h2
        cases K with
        | none => simp at h2
        | some l => exact .known h1 rfl h2
      · rename_i h1 h2
        exact .lazy h1 fun l hl => by subst hl; exact h2

/-- **C73 (prefixed).** A reference `prefix:name` becomes the code for the capitalised name. -/
theorem C73_prefixed (X : List (Option Str)) (K : Option (List Str)) (p : Str) (c : Char) (cs : Str) (hp : ':' ∉ p)
    (hn : ':' ∉ c :: cs) (code : Str) :
    getType X K (.text (p ++ ':' :: c :: cs)) = .ok code ↔ RefersTo X K (some p) (upperC c :: cs) code := by
  have hne : ∃ a b, p ++ ':' :: c :: cs = a :: b := by cases p <;> simp
  obtain ⟨a, b, hab⟩ := hne
  have hq : TypeSource.qname (.text (p ++ ':' :: c :: cs)) = .ok (p ++ ':' :: c :: cs) := by rw [hab]; rfl
  have hs : splitQName (p ++ ':' :: c :: cs) = .ok (some p, c :: cs) := by
    unfold splitQName
    rw [splitOn_colon hp, splitOn_none hn]
  unfold getType
  simp only [hq, hs, capitalize, bind, Except.bind, Except.ok.injEq]
  exact (refersTo_iff X K _ _ _).symm

/-- **C73 (unprefixed).** A reference without prefix belongs to the default namespace. -/
theorem C73_unprefixed (X : List (Option Str)) (K : Option (List Str)) (c : Char) (cs : Str) (hn : ':' ∉ c :: cs)
    (code : Str) : getType X K (.text (c :: cs)) = .ok code ↔ RefersTo X K none (upperC c :: cs) code := by
  have hs : splitQName (c :: cs) = .ok (none, c :: cs) := by
    unfold splitQName
    rw [splitOn_none hn]
  unfold getType
  simp only [TypeSource.qname, hs, capitalize, bind, Except.bind, Except.ok.injEq]
  exact (refersTo_iff X K _ _ _).symm

/-- **C73 (colons).** More than one colon is a ValueError. -/
theorem C73_colons (X : List (Option Str)) (K : Option (List Str)) (a b c : Str) :
    getType X K (.text (a ++ ':' :: (b ++ ':' :: c))) = .error .valueError := by
  have hne : ∃ x y, a ++ ':' :: (b ++ ':' :: c) = x :: y := by cases a <;> simp
  obtain ⟨x, y, hxy⟩ := hne
  have hq : TypeSource.qname (.text (a ++ ':' :: (b ++ ':' :: c))) = .ok (a ++ ':' :: (b ++ ':' :: c)) := by rw [hxy]; rfl
  have hlen : 3 ≤ (splitOn ':' (a ++ ':' :: (b ++ ':' :: c))).length := by
    have key : ∀ p r : Str, (splitOn ':' r).length + 1 ≤ (splitOn ':' (p ++ ':' :: r)).length := by
      intro p r
      induction p with
      | nil => simp [splitOn]
      | cons d ds ih =>
        rw [List.cons_append]
        conv => rhs; unfold splitOn
        split
        · simp; omega
        · split
          · rename_i w ws h
            rw [h] at ih
            simpa using ih
          · rename_i h
            rw [h] at ih
            simp at ih
    have h1 := key a (b ++ ':' :: c)
    have h2 := key b c
    have h3 : 1 ≤ (splitOn ':' c).length := by
      cases h : splitOn ':' c with
      | nil => exact absurd h (splitOn_ne_nil c)
      | cons _ _ => simp
    omega
  have hs : splitQName (a ++ ':' :: (b ++ ':' :: c)) = .error .valueError := by
    unfold splitQName
    split
    · rename_i h; rw [h] at hlen; simp at hlen
    · rename_i h; rw [h] at hlen; simp at hlen
    · rfl
  unfold getType
  simp only [hq, hs, bind, Except.bind]

/-- **C73 (sources).** An element or attribute refers to its `ref`, otherwise its `type`; with neither, an embedded
simple type is a NotImplementedError and nothing a ValueError; a derivation refers to its base. -/
theorem C73_sources (X : List (Option Str)) (K : Option (List Str)) (q : Str) (hq : q ≠ []) (t : Option Str) (s : Bool) :
    getType X K (.item (some q) t s) = getType X K (.text q) ∧
    getType X K (.item none (some q) s) = getType X K (.text q) ∧
    getType X K (.derived (some q)) = getType X K (.text q) ∧
    getType X K (.item none none true) = .error .notImplemented ∧
    getType X K (.item none none false) = .error .valueError ∧
    getType X K (.derived none) = .error .valueError ∧ getType X K .other = .error .valueError := by
  cases q with
  | nil => exact absurd rfl hq
  | cons c cs => exact ⟨rfl, rfl, rfl, rfl, rfl, rfl, rfl⟩

/-- **C73 (ambiguous).** Types of the same name in different user namespaces, and types whose names differ only in the
case of the first letter, get the same code. -/
theorem C73_ambiguous (X : List (Option Str)) (K : Option (List Str)) (p p' : Str) (c c' : Char) (cs : Str)
    (hp : ':' ∉ p) (hp' : ':' ∉ p') (hn : ':' ∉ c :: cs) (hn' : ':' ∉ c' :: cs) (hX : some p ∉ X) (hX' : some p' ∉ X)
    (hc : upperC c = upperC c') :
    getType X K (.text (p ++ ':' :: c :: cs)) = getType X K (.text (p' ++ ':' :: c' :: cs)) := by
  have h1 := (C73_prefixed X K p c cs hp hn (typeCode X K (some p) (upperC c :: cs))).2 ((refersTo_iff ..).2 rfl)
  have h2 := (C73_prefixed X K p' c' cs hp' hn' (typeCode X K (some p') (upperC c' :: cs))).2 ((refersTo_iff ..).2 rfl)
  rw [h1, h2, hc]
  unfold typeCode
  rw [if_neg hX, if_neg hX']

example : getType [some py"xs"] (some [py"Airport"]) (.text py"xs:string") = .ok py"xsd.String" ∧
    getType [some py"xs"] (some [py"Airport"]) (.text py"tns:airport") = .ok py"Airport" ∧
    getType [some py"xs"] (some [py"Airport"]) (.item none (some py"tns:Plane") false) = .ok py"__name__ + '.Plane'" := by
  decide

/-- **C68 (use).** The three values of a `use` attribute are written as the members of `xsd.Use` whose names they are in
capital letters; any other value is a ValueError. -/
theorem C68_use (v : Str) :
    (v ∈ [py"optional", py"required", py"prohibited"] → useText v = .ok (py"xsd.Use." ++ v.map upperC)) ∧
    (v ∉ [py"optional", py"required", py"prohibited"] → useText v = .error .valueError) := by
  constructor
  · intro h
    simp only [List.mem_cons, List.not_mem_nil, or_false] at h
    rcases h with rfl | rfl | rfl <;> decide +kernel
  · intro h
    simp only [List.mem_cons, List.not_mem_nil, or_false, not_or] at h
    unfold useText
    rw [if_neg h.1, if_neg h.2.1, if_neg h.2.2]

end Soapfish
