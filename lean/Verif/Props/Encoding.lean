import Verif.Props.Served
import Verif.Spec.Encoding
/-
Percent encoding (C71).
-/
namespace Soapfish

theorem char_toNat_range (c : Char) : c.toNat < 0xd800 ∨ (0xdfff < c.toNat ∧ c.toNat < 0x110000) := by
  have := c.valid
  exact this

theorem second3 {n : Nat} (h1 : ¬ n < 0x800) (h2 : n < 0x10000) (h3 : n < 0xd800 ∨ (0xdfff < n ∧ n < 0x110000)) :
    secondLo (0xe0 + n / 4096) ≤ 0x80 + n / 64 % 64 ∧ 0x80 + n / 64 % 64 ≤ secondHi (0xe0 + n / 4096) := by
  unfold secondLo secondHi
  constructor
  · split
    · omega
    · split <;> omega
  · split
    · omega
    · split <;> omega

theorem second4 {n : Nat} (h1 : ¬ n < 0x10000) (h2 : n < 0x110000) :
    secondLo (0xf0 + n / 262144) ≤ 0x80 + n / 4096 % 64 ∧ 0x80 + n / 4096 % 64 ≤ secondHi (0xf0 + n / 262144) := by
  unfold secondLo secondHi
  constructor
  · split
    · omega
    · split <;> omega
  · split
    · omega
    · split <;> omega

theorem utf8Replace_char (c : Char) (R : Bytes) : utf8Replace (utf8 c ++ R) = c :: utf8Replace R := by
  have hr := char_toNat_range c
  have hc : Char.ofNat c.toNat = c := Char.ofNat_toNat c
  unfold utf8
  generalize c.toNat = n at hr hc
  subst hc
  split
  · simp only [List.cons_append, List.nil_append]
    conv => lhs; unfold utf8Replace
    rw [if_pos (by assumption)]
  · split
    · have e : (0xc0 + n / 64 - 0xc0) * 64 + (0x80 + n % 64 - 0x80) = n := by omega
      simp only [List.cons_append, List.nil_append]
      conv => lhs; unfold utf8Replace
      rw [if_neg (by omega), if_pos (by simp only [contByte, Bool.and_eq_true, decide_eq_true_eq]; omega)]
      simp only
      rw [e]
    · split
      · have e : (0xe0 + n / 4096 - 0xe0) * 4096 + (0x80 + n / 64 % 64 - 0x80) * 64 + (0x80 + n % 64 - 0x80) = n := by omega
        simp only [List.cons_append, List.nil_append]
        conv => lhs; unfold utf8Replace
        rw [if_neg (by omega), if_neg (by simp; omega),
          if_pos (by
            simp only [contByte, Bool.and_eq_true, decide_eq_true_eq]
            exact ⟨⟨by omega, by omega⟩, second3 (by assumption) (by assumption) hr⟩)]
        simp only
        rw [if_pos (by simp only [contByte, Bool.and_eq_true, decide_eq_true_eq]; omega), e]
      · have e : (0xf0 + n / 262144 - 0xf0) * 262144 + (0x80 + n / 4096 % 64 - 0x80) * 4096 +
            (0x80 + n / 64 % 64 - 0x80) * 64 + (0x80 + n % 64 - 0x80) = n := by omega
        simp only [List.cons_append, List.nil_append]
        conv => lhs; unfold utf8Replace
        rw [if_neg (by omega), if_neg (by simp; omega), if_neg (by simp; omega),
          if_pos (by
            simp only [contByte, Bool.and_eq_true, decide_eq_true_eq]
            exact ⟨⟨by omega, by omega⟩, second4 (by assumption) (by omega)⟩)]
        simp only
        rw [if_pos (by simp only [contByte, Bool.and_eq_true, decide_eq_true_eq]; omega),
          if_pos (by simp only [contByte, Bool.and_eq_true, decide_eq_true_eq]; omega), e]

theorem hexDigit?_of {c : Char} {v : Nat} (h : IsHex c v) : hexDigit? c = some v ∧ c.toNat < 128 ∧ c ≠ '+' ∧ c ≠ '%' := by
  rcases h with h | h
  · obtain ⟨hv, rfl⟩ := List.getElem?_eq_some_iff.1 h
    exact (by decide : ∀ i : Fin 16, hexDigit? (py"0123456789abcdef"[i]) = some i.1 ∧
      (py"0123456789abcdef"[i]).toNat < 128 ∧ py"0123456789abcdef"[i] ≠ '+' ∧ py"0123456789abcdef"[i] ≠ '%') ⟨v, hv⟩
  · obtain ⟨hv, rfl⟩ := List.getElem?_eq_some_iff.1 h
    exact (by decide : ∀ i : Fin 16, hexDigit? (py"0123456789ABCDEF"[i]) = some i.1 ∧
      (py"0123456789ABCDEF"[i]).toNat < 128 ∧ py"0123456789ABCDEF"[i] ≠ '+' ∧ py"0123456789ABCDEF"[i] ≠ '%') ⟨v, hv⟩

theorem unquoteBytes_percent {bs : List Nat} {p : Str} (h : Percent bs p) (X : Str) :
    unquoteBytes (p ++ X) = bs ++ unquoteBytes X := by
  induction h with
  | nil => rfl
  | byte h1 h2 _ ih =>
    simp only [List.cons_append]
    conv => lhs; unfold unquoteBytes
    rw [if_pos rfl]
    simp only [(hexDigit?_of h1).1, (hexDigit?_of h2).1, ih]

/-- ASCII text decoded by itself, whatever follows. -/
def Done (A t : Str) : Prop := ∃ B, (∀ X, unquoteBytes (A ++ X) = B ++ unquoteBytes X) ∧
  ∀ R, utf8Replace (B ++ R) = t ++ utf8Replace R

theorem Done.nil : Done [] [] := ⟨[], fun _ => rfl, fun _ => rfl⟩

theorem Done.append {A B t u : Str} (h1 : Done A t) (h2 : Done B u) : Done (A ++ B) (t ++ u) := by
  obtain ⟨X, a1, a2⟩ := h1
  obtain ⟨Y, b1, b2⟩ := h2
  exact ⟨X ++ Y, fun Z => by rw [List.append_assoc, a1, b1, List.append_assoc],
    fun R => by rw [List.append_assoc, a2, b2, List.append_assoc]⟩

theorem Done.ascii {c : Char} (h1 : c.toNat < 128) (h2 : c ≠ '%') : Done [c] [c] := by
  refine ⟨[c.toNat], fun X => ?_, fun R => ?_⟩
  · rw [List.cons_append]; conv => lhs; unfold unquoteBytes
    rw [if_neg h2]; rfl
  · simp only [List.cons_append, List.nil_append]
    conv => lhs; unfold utf8Replace
    rw [if_pos h1, Char.ofNat_toNat]

theorem Done.percent {c : Char} {p : Str} (h : Percent (utf8 c) p) : Done p [c] :=
  ⟨utf8 c, unquoteBytes_percent h, utf8Replace_char c⟩

theorem Done.end {A t : Str} (h : Done A t) : utf8Replace (unquoteBytes A) = t := by
  obtain ⟨B, h1, h2⟩ := h
  have h1 := h1 []
  have h2 := h2 []
  rw [List.append_nil] at h1
  rw [h1]
  show utf8Replace (B ++ []) = t
  rw [h2]
  simp [utf8Replace]

theorem percent_ascii {bs : List Nat} {p : Str} (h : Percent bs p) : ∀ c ∈ p, c.toNat < 128 ∧ c ≠ '+' := by
  induction h with
  | nil => simp
  | byte h1 h2 _ ih =>
    intro c hc
    simp only [List.mem_cons] at hc
    rcases hc with rfl | rfl | rfl | hc
    · decide
    · exact ⟨(hexDigit?_of h1).2.1, (hexDigit?_of h1).2.2.1⟩
    · exact ⟨(hexDigit?_of h2).2.1, (hexDigit?_of h2).2.2.1⟩
    · exact ih c hc

theorem unquoteRuns_ascii {p : Str} (h : ∀ c ∈ p, c.toNat < 128) (acc e : Str) :
    unquoteRuns acc (p ++ e) = unquoteRuns (p.reverse ++ acc) e := by
  induction p generalizing acc with
  | nil => rfl
  | cons c p ih =>
    rw [List.cons_append, unquoteRuns, if_pos (h c (by simp)), ih fun d hd => h d (by simp [hd])]
    simp

theorem unquoteRuns_encoded {s e : Str} (h : FormEncoded s e) (acc t : Str) (ha : Done acc.reverse t) :
    unquoteRuns acc (e.map fun c => if c = '+' then ' ' else c) = t ++ s := by
  induction h generalizing acc t with
  | nil => simpa [unquoteRuns] using ha.end
  | blank _ ih =>
    rw [List.map_cons, if_pos rfl, unquoteRuns, if_pos (by decide), ih _ (t ++ [' '])]
    · simp
    · rw [List.reverse_cons]; exact ha.append (.ascii (by decide) (by decide))
  | @keep c s e h1 h2 _ ih =>
    rw [List.map_cons, if_neg h2, unquoteRuns]
    split
    · rw [ih _ (t ++ [c])]
      · simp
      · rw [List.reverse_cons]; exact ha.append (.ascii (by assumption) h1)
    · rw [ha.end, ih [] [] .nil]
      rfl
  | @percent c p s e hp _ ih =>
    have hid : p.map (fun c => if c = '+' then ' ' else c) = p := by
      conv => rhs; rw [← List.map_id p]
      exact List.map_congr_left fun d hd => if_neg (percent_ascii hp d hd).2
    rw [List.map_append, hid, unquoteRuns_ascii fun d hd => (percent_ascii hp d hd).1, ih _ (t ++ [c])]
    · simp
    · rw [List.reverse_append, List.reverse_reverse]; exact ha.append (.percent hp)

theorem encoded_plain {s e : Str} (h : FormEncoded s e) (hp : '%' ∉ e) :
    (e.map fun c => if c = '+' then ' ' else c) = s := by
  induction h with
  | nil => rfl
  | blank _ ih => rw [List.map_cons, ih fun h => hp (by simp [h])]; rfl
  | keep h1 h2 _ ih => rw [List.map_cons, if_neg h2, ih fun h => hp (by simp [h])]
  | @percent c p s e hp' _ ih =>
    exfalso
    refine hp (List.mem_append_left _ ?_)
    generalize hb : utf8 c = bs at hp'
    cases hp' with
    | nil =>
      exfalso
      unfold utf8 at hb
      split at hb
      · cases hb
      · split at hb
        · cases hb
        · split at hb <;> cases hb
    | byte _ _ _ => simp

/-- **C71.** Decoding a text that was form-encoded in any way gives the text. -/
theorem C71_decoded (s e : Str) (h : FormEncoded s e) : unquotePlus e = s := by
  unfold unquotePlus unquote
  split
  · simpa using unquoteRuns_encoded h [] [] .nil
  · refine encoded_plain h fun hp => ?_
    rename_i hno
    refine hno ?_
    unfold hasChar
    rw [List.contains_iff_mem]
    exact List.mem_map.2 ⟨'%', hp, rfl⟩

/-- `Ä b+c` in three ways. -/
example : unquotePlus py"%C3%84+b%2Bc" = py"Ä b+c" ∧ unquotePlus py"Ä%20b%2bc" = py"Ä b+c" ∧
    unquotePlus py"%c3%84+%62%2Bc" = py"Ä b+c" := by
  refine ⟨C71_decoded _ _ ?_, C71_decoded _ _ ?_, C71_decoded _ _ ?_⟩
  · exact .percent (p := py"%C3%84") (.byte (x := 12) (y := 3) (.inr rfl) (.inl rfl) (.byte (x := 8) (y := 4) (.inl rfl) (.inl rfl) .nil))
      (.blank (.keep (by decide) (by decide) (.percent (p := py"%2B") (.byte (x := 2) (y := 11) (.inl rfl) (.inr rfl) .nil)
        (.keep (by decide) (by decide) .nil))))
  · exact .keep (by decide) (by decide) (.percent (p := py"%20") (.byte (x := 2) (y := 0) (.inl rfl) (.inl rfl) .nil)
      (.keep (by decide) (by decide) (.percent (p := py"%2b") (.byte (x := 2) (y := 11) (.inl rfl) (.inl rfl) .nil)
        (.keep (by decide) (by decide) .nil))))
  · exact .percent (p := py"%c3%84") (.byte (x := 12) (y := 3) (.inl rfl) (.inl rfl) (.byte (x := 8) (y := 4) (.inl rfl) (.inl rfl) .nil))
      (.blank (.percent (p := py"%62") (.byte (x := 6) (y := 2) (.inl rfl) (.inl rfl) .nil)
        (.percent (p := py"%2B") (.byte (x := 2) (y := 11) (.inl rfl) (.inr rfl) .nil)
          (.keep (by decide) (by decide) .nil))))

theorem asks_encoded {q : Req} {name e : Str} (hget : q.environ py"REQUEST_METHOD" = some py"GET")
    (hqs : q.environ py"QUERY_STRING" = some (py"xsd=" ++ e)) (he : FormEncoded name e) (hamp : '&' ∉ e) (hne : name ≠ []) :
    AsksXsd q ∧ AskedName q.query name := by
  have hquery : q.query = py"xsd=" ++ e := by unfold Req.query; rw [hqs]; rfl
  have hj : Joined '&' [py"xsd=" ++ e] q.query := by
    rw [hquery]
    refine ⟨by simp, ?_, by simp [List.intercalate]⟩
    intro i hi
    simp only [List.mem_singleton] at hi
    subst hi
    simp [hamp]
  have hf : QueryField (py"xsd=" ++ e) py"xsd" name :=
    ⟨by simp, py"xsd", e, by decide, .inr rfl, by decide, C71_decoded _ _ he⟩
  have hno : ∀ k, k ≠ py"xsd" → ¬ HasKey q.query k := by
    rintro k hk ⟨items, hj', item, hi, v, hv⟩
    have h3 := (joined_iff.1 hj).trans (joined_iff.1 hj').symm
    subst h3
    simp only [List.mem_singleton] at hi
    subst hi
    have h4 := (queryField_iff.1 hv).2.1
    have h5 := (queryField_iff.1 hf).2.1
    exact hk (h4.symm.trans h5)
  have ha : AsksXsd q := ⟨hget, ⟨_, hj, _, by simp, _, hf⟩, hno _ (by decide), hno _ (by decide)⟩
  have hn : AskedName q.query name := ⟨name, ⟨_, _, hj, ⟨[], [], rfl, ⟨_, hf⟩, by simp⟩, hf⟩, .inl ⟨hne, rfl⟩⟩
  exact ⟨ha, hn⟩

/-- **C71 (served).** So a schema whose name is asked for in any encoding is served. -/
theorem C71_served (W : World) (d : DispId) (r : ReqId) (s : State) (q : Req) (name e : Str) (b : Bytes)
    (hq : s.reqs[r]? = some q) (hget : q.environ py"REQUEST_METHOD" = some py"GET")
    (hqs : q.environ py"QUERY_STRING" = some (py"xsd=" ++ e)) (he : FormEncoded name e) (hamp : '&' ∉ e) (hne : name ≠ [])
    (h1 : (W.disp d).hooks.get? py"xsd-request" = none) (h2 : (W.disp d).hooks.get? py"wsdl-response" = none)
    (hb : First (fun p => p.1 = some name) (W.disp d).xsds (some name, b)) :
    ∃ resp, outcome (dispatch W d r) s = .ok resp ∧ resp.content = .bytes b ∧ resp.status = 200 := by
  have ⟨ha, hn⟩ := asks_encoded hget hqs he hamp hne
  exact ⟨_, congrArg Prod.fst (C48_found W d r s q name b hq ha h1 h2 hn hb), rfl, rfl⟩

end Soapfish
