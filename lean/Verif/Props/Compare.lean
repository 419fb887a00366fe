import Verif.Compare
import Verif.ComplexLemmas
import Verif.Examples
/-
C34: equality, hashing and ordering of instances.
-/
namespace Soapfish

theorem bytes_lt_irrefl (a : Bytes) : Bytes.lt a a = false := by
  induction a with
  | nil => rfl
  | cons x a ih => simp [Bytes.lt, ih]

theorem bytes_lt_trans {a b c : Bytes} (h1 : Bytes.lt a b = true) (h2 : Bytes.lt b c = true) : Bytes.lt a c = true := by
  induction a generalizing b c with
  | nil =>
    cases c with
    | nil => cases b <;> simp [Bytes.lt] at h2
    | cons => rfl
  | cons x a ih =>
    cases b with
    | nil => simp [Bytes.lt] at h1
    | cons y b =>
      cases c with
      | nil => simp [Bytes.lt] at h2
      | cons z c =>
        simp only [Bytes.lt] at h1 h2 ⊢
        by_cases hxy : x = y
        · subst hxy
          by_cases hxz : x = z
          · subst hxz; simp only [if_true] at h1 h2 ⊢; exact ih h1 h2
          · simp only [if_neg hxz] at h2 ⊢; exact h2
        · by_cases hyz : y = z
          · subst hyz; simp only [if_neg hxy] at h1 ⊢; exact h1
          · simp only [if_neg hxy, if_neg hyz, decide_eq_true_eq] at h1 h2
            have : x ≠ z := by omega
            simp only [if_neg this, decide_eq_true_eq]; omega

theorem bytes_lt_total (a b : Bytes) : Bytes.lt a b = true ∨ a = b ∨ Bytes.lt b a = true := by
  induction a generalizing b with
  | nil => cases b <;> simp [Bytes.lt]
  | cons x a ih =>
    cases b with
    | nil => simp [Bytes.lt]
    | cons y b =>
      simp only [Bytes.lt]
      by_cases hxy : x = y
      · subst hxy; simpa using ih b
      · simp only [if_neg hxy, if_neg (Ne.symm hxy), decide_eq_true_eq]; omega

theorem bytes_lt_not {a b : Bytes} : Bytes.lt a b = false ↔ Bytes.lt b a = true ∨ a = b := by
  constructor
  · intro h
    rcases bytes_lt_total a b with h1 | h1 | h1
    · rw [h] at h1; cases h1
    · exact .inr h1
    · exact .inl h1
  · rintro (h | rfl)
    · cases hb : Bytes.lt a b with
      | false => rfl
      | true => have := bytes_lt_trans hb h; rw [bytes_lt_irrefl] at this; cases this
    · exact bytes_lt_irrefl _

variable {ν : Type} (ser : ν → Bytes) (T : Table)

/-- On instances with an element the operators compare the serialised elements, whatever the classes. -/
theorem ops_parsed {a b : PyInst ν} {x y : ν} (ha : a.node = some x) (hb : b.node = some y) :
    pyEq ser T a b = decide (ser x = ser y) ∧ pyLt ser T a b = Bytes.lt (ser x) (ser y) ∧
    pyGt ser T a b = Bytes.lt (ser y) (ser x) ∧ pyLe ser T a b = !Bytes.lt (ser y) (ser x) ∧
    pyGe ser T a b = !Bytes.lt (ser x) (ser y) := by
  have key : ∀ s t : Bytes, (!Bytes.lt s t && !decide (s = t)) = Bytes.lt t s := by
    intro s t
    cases h : Bytes.lt t s with
    | true =>
      have h1 := bytes_lt_not.2 (.inl h)
      have h2 : s ≠ t := by rintro rfl; rw [bytes_lt_irrefl] at h; cases h
      simp [h1, h2]
    | false =>
      rcases bytes_lt_not.1 h with h1 | rfl
      · simp [h1]
      · simp
  have key2 : ∀ s t : Bytes, (Bytes.lt s t || decide (s = t)) = !Bytes.lt t s := by
    intro s t
    rw [← key s t]; simp
  have key3 : decide (ser y = ser x) = decide (ser x = ser y) := by simp [eq_comm]
  unfold pyEq pyLt pyGt pyLe pyGe
  cases reflected T a b <;>
    simp only [dunderEq, dunderLt, dunderGt, dunderLe, dunderGe, ha, hb, key, key2, Bool.false_eq_true, if_true, if_false,
      and_self, and_true]
  exact key3

/-- C34. `==` is an equivalence on instances obtained by parsing. -/
theorem C34_equivalence (a b c : PyInst ν) (ha : a.node ≠ none) (hb : b.node ≠ none) (hc : c.node ≠ none) :
    pyEq ser T a a = true ∧ pyEq ser T a b = pyEq ser T b a ∧
      (pyEq ser T a b = true → pyEq ser T b c = true → pyEq ser T a c = true) := by
  obtain ⟨x, ha⟩ := Option.ne_none_iff_exists'.1 ha
  obtain ⟨y, hb⟩ := Option.ne_none_iff_exists'.1 hb
  obtain ⟨z, hc⟩ := Option.ne_none_iff_exists'.1 hc
  simp only [(ops_parsed ser T ha ha).1, (ops_parsed ser T ha hb).1, (ops_parsed ser T hb ha).1, (ops_parsed ser T hb hc).1,
    (ops_parsed ser T ha hc).1, decide_eq_true_eq]
  refine ⟨trivial, by simp [eq_comm], fun h1 h2 => h1.trans h2⟩

/-- C34. Equal instances (parsed or not) have equal hashes. -/
theorem C34_hash (h : Bytes → Int) (a b : PyInst ν) (he : pyEq ser T a b = true) :
    dunderHash ser h a = dunderHash ser h b := by
  have : ∀ a b : PyInst ν, dunderEq ser a b = true → dunderHash ser h a = dunderHash ser h b := by
    intro a b he
    unfold dunderEq at he
    split at he
    · next x y hx hy => simp only [decide_eq_true_eq] at he; simp [dunderHash, hx, hy, he]
    · cases he
  unfold pyEq at he
  split at he
  · exact (this b a he).symm
  · exact this a b he

/-- C34. `<` is a strict total order on instances obtained by parsing, compatible with `==`: exactly one of `a < b`,
`a == b`, `b < a` holds, and `<` is transitive. -/
theorem C34_strict_total_order (a b c : PyInst ν) (ha : a.node ≠ none) (hb : b.node ≠ none) (hc : c.node ≠ none) :
    (pyLt ser T a b = true → pyLt ser T b c = true → pyLt ser T a c = true) ∧
    ((pyLt ser T a b = true ∧ pyEq ser T a b = false ∧ pyLt ser T b a = false) ∨
     (pyLt ser T a b = false ∧ pyEq ser T a b = true ∧ pyLt ser T b a = false) ∨
     (pyLt ser T a b = false ∧ pyEq ser T a b = false ∧ pyLt ser T b a = true)) := by
  obtain ⟨x, ha⟩ := Option.ne_none_iff_exists'.1 ha
  obtain ⟨y, hb⟩ := Option.ne_none_iff_exists'.1 hb
  obtain ⟨z, hc⟩ := Option.ne_none_iff_exists'.1 hc
  obtain ⟨e1, l1, _⟩ := ops_parsed ser T ha hb
  obtain ⟨e2, l2, _⟩ := ops_parsed ser T hb ha
  obtain ⟨_, l3, _⟩ := ops_parsed ser T hb hc
  obtain ⟨_, l4, _⟩ := ops_parsed ser T ha hc
  rw [e1, l1, l2, l3, l4]
  refine ⟨bytes_lt_trans, ?_⟩
  by_cases hs : ser x = ser y
  · rw [hs, bytes_lt_irrefl]; simp
  · simp only [hs, decide_false]
    rcases bytes_lt_total (ser x) (ser y) with h | h | h
    · left; exact ⟨h, trivial, bytes_lt_not.2 (.inl h)⟩
    · exact absurd h hs
    · right; right; exact ⟨bytes_lt_not.2 (.inl h), trivial, h⟩

/-- C34. The other operators agree with `<` and `==`. -/
theorem C34_operators_agree (a b : PyInst ν) (ha : a.node ≠ none) (hb : b.node ≠ none) :
    (pyLe ser T a b = (pyLt ser T a b || pyEq ser T a b)) ∧ pyGt ser T a b = pyLt ser T b a ∧
      pyGe ser T a b = pyLe ser T b a := by
  obtain ⟨x, ha⟩ := Option.ne_none_iff_exists'.1 ha
  obtain ⟨y, hb⟩ := Option.ne_none_iff_exists'.1 hb
  obtain ⟨e1, l1, g1, le1, ge1⟩ := ops_parsed ser T ha hb
  obtain ⟨e2, l2, g2, le2, ge2⟩ := ops_parsed ser T hb ha
  rw [le1, l1, e1, g1, l2, ge1, le2]
  refine ⟨?_, rfl, rfl⟩
  rcases bytes_lt_total (ser x) (ser y) with h | h | h
  · simp [h, bytes_lt_not.2 (.inl h)]
  · simp [h, bytes_lt_irrefl]
  · have : ser x ≠ ser y := by intro h'; rw [h', bytes_lt_irrefl] at h; cases h
    simp [h, bytes_lt_not.2 (.inl h), this]

/-- C34. An instance built in Python is equal to nothing, not even itself. -/
theorem C34_built_unequal (a b : PyInst ν) (ha : a.node = none) : pyEq ser T a b = false ∧ pyEq ser T b a = false := by
  unfold pyEq dunderEq
  rw [ha]
  constructor <;> split <;> cases b.node <;> rfl

/-- C34. The hash of an instance built in Python identifies the object: two such instances have the same hash exactly
if they are the same object. -/
theorem C34_built_hash (h : Bytes → Int) (a b : PyInst ν) (ha : a.node = none) (hb : b.node = none) :
    dunderHash ser h a = dunderHash ser h b ↔ a.ident = b.ident := by
  simp only [dunderHash, ha, hb]
  exact Int.ofNat_inj

/-- C34. Ordering is useless for instances built in Python: of two instances of one class each is greater than the
other, and each is greater than itself. -/
theorem C34_built_order (a b : PyInst ν) (ha : a.node = none) (hc : a.cls = b.cls) :
    pyGt ser T a b = true ∧ pyGt ser T b a = true ∧ pyGe ser T a b = true ∧ pyLt ser T a b = false ∧ pyLe ser T a b = false := by
  have h1 : reflected T a b = false := by simp [reflected, hc]
  have h2 : reflected T b a = false := by simp [reflected, hc]
  unfold pyGt pyGe pyLt pyLe dunderGt dunderGe dunderLe dunderLt dunderEq
  rw [h1, h2, ha]
  cases b.node <;> simp

/-- C34. With a subclass on the right even the answer to `<` changes. -/
theorem C34_built_subclass (a b : PyInst ν) (ha : a.node = none) (hc : b.cls ≠ a.cls) (hs : a.cls ∈ (T b.cls).mro) :
    pyLt ser T a b = true := by
  have h1 : reflected T a b = true := by simp [reflected, isSub, hc, hs]
  unfold pyLt dunderGt dunderLt dunderEq
  rw [h1, ha]
  cases b.node <;> simp

/-! ### Parsed instances -/

theorem foldE_node {α : Type} {f : Val → α → Except Exn Val} (hf : ∀ v a w, f v a = .ok w → w.node = v.node) (L : List α) :
    ∀ {v w : Val}, foldE f v L = .ok w → w.node = v.node := by
  induction L with
  | nil => intro v w h; injection h with h; subst h; rfl
  | cons a L ih =>
    intro v w h
    simp only [foldE, bind_eq_ok] at h
    obtain ⟨u, h1, h2⟩ := h
    rw [ih h2, hf _ _ _ h1]

theorem setAttr_node {T : Table} {nw : ClsId → Except Exn Val} {v w u : Val} {name : Str}
    (h : setAttr T nw v name w = .ok u) : u.node = v.node := by
  unfold setAttr at h
  split at h
  · simp only [bind_eq_ok] at h
    obtain ⟨f, _, w', _, h⟩ := h
    injection h with h; subst h; rfl
  · cases h

theorem parseElement_node {T : Table} {nw : ClsId → Except Exn Val} {pc : ParseCls} {f : Field} {v w : Val} {x : Xml}
    (h : parseElement T nw pc f v x = .ok w) : w.node = v.node := by
  simp only [parseElement, bind_eq_ok] at h
  obtain ⟨_, _, u, _, h⟩ := h
  exact setAttr_node h

theorem appendAttr_node {T : Table} {nw : ClsId → Except Exn Val} {f : Field} {v w u : Val}
    (h : appendAttr T nw f v u = .ok w) : w.node = v.node := by
  unfold appendAttr at h
  split at h
  · split at h
    · simp only [bind_eq_ok] at h
      obtain ⟨_, _, h⟩ := h
      injection h with h; subst h; rfl
    · injection h with h; subst h; rfl
    · cases h
  · cases h

theorem parseOne_node {T : Table} {nw : ClsId → Except Exn Val} {pc : ParseCls} {f : Field} {v w : Val} {x : Xml}
    (h : parseOne T nw pc f v x = .ok w) : w.node = v.node := by
  unfold parseOne at h
  split at h
  · simp only [parseItem, bind_eq_ok] at h
    obtain ⟨_, _, u, _, h⟩ := h
    exact appendAttr_node h
  · exact parseElement_node h

theorem parseChoice_node {T : Table} {nw : ClsId → Except Exn Val} {pc : ParseCls} {x : Xml} (L : List Field) :
    ∀ {v w : Val}, parseChoice T nw pc x v L = .ok w → w.node = v.node := by
  induction L with
  | nil => intro v w h; injection h with h; subst h; rfl
  | cons f L ih =>
    intro v w h
    simp only [parseChoice] at h
    split at h
    · split at h
      · exact parseOne_node h
      · exact ih h
    · exact ih h
    · cases h

theorem newInst_inst {T : Table} {N : Nat} {c : ClsId} {v : Val} (h : newInst T N c = .ok v) :
    ∃ fs, v = .inst c fs Option.none := by
  cases N with
  | zero => cases h
  | succ N =>
    simp only [newInst, bind_eq_ok] at h
    obtain ⟨fs, _, h⟩ := h
    injection h with h; exact ⟨fs, h.symm⟩

/-- C34. A parsed instance keeps the element it was read from, and assigning to its fields does not change that. -/
theorem C34_parsed_keeps_element (T : Table) (N n : Nat) (c : ClsId) (x : Xml) (v : Val) (h : parseCls T N n c x = .ok v) :
    v.node = some x ∧ ∀ nw name w v', setAttr T nw v name w = .ok v' → v'.node = some x := by
  have hv : v.node = some x := by
    cases n with
    | zero => cases h
    | succ n =>
      simp only [parseCls, bind_eq_ok] at h
      obtain ⟨i0, h0, i1, h1, i2, h2, h3⟩ := h
      obtain ⟨fs, rfl⟩ := newInst_inst h0
      rw [foldE_node (fun _ _ _ hx => parseElement_node hx) _ h3]
      have e1 : i1.node = some x := by
        refine (foldE_node ?_ _ h1).trans rfl
        intro v f w hx
        simp only [parseAttr, bind_eq_ok] at hx
        obtain ⟨_, _, _, _, hx⟩ := hx
        exact setAttr_node hx
      rw [← e1]
      split at h2
      · exact parseChoice_node _ h2
      · refine foldE_node ?_ _ h2
        intro v f w hx
        simp only [parseSeq, bind_eq_ok] at hx
        obtain ⟨_, _, hx⟩ := hx
        exact foldE_node (fun _ _ _ hy => parseOne_node hy) _ hx
  exact ⟨hv, fun nw name w v' h' => by rw [setAttr_node h', hv]⟩

/-- C34. So two parsed instances are equal exactly if their documents serialise to the same bytes: the classes do not
matter, nor do assignments made since. -/
theorem C34_equal_documents (ser : Xml → Bytes) (T : Table) (N n N' n' : Nat) (c c' : ClsId) (x y : Xml) (v w : Val) (i j : Nat)
    (hv : parseCls T N n c x = .ok v) (hw : parseCls T N' n' c' y = .ok w) :
    (pyEq ser T (v.seen i) (w.seen j) = true ↔ ser x = ser y) ∧
    ∀ nw name u v', setAttr T nw v name u = .ok v' → (pyEq ser T (v'.seen i) (w.seen j) = true ↔ ser x = ser y) := by
  obtain ⟨h1, h2⟩ := C34_parsed_keeps_element T N n c x v hv
  obtain ⟨h3, _⟩ := C34_parsed_keeps_element T N' n' c' y w hw
  refine ⟨?_, fun nw name u v' h => ?_⟩
  · rw [(ops_parsed ser T (a := v.seen i) (b := w.seen j) h1 h3).1, decide_eq_true_eq]
  · rw [(ops_parsed ser T (a := v'.seen i) (b := w.seen j) (h2 _ _ _ _ h) h3).1, decide_eq_true_eq]

/-- Two parsed persons and a built one. -/
example : ∃ v w b, parseCls Ex.table 5 5 0 Ex.doc = .ok v ∧ parseCls Ex.table 5 5 1 Ex.doc = .ok w ∧
    newInst Ex.table 5 0 = .ok b ∧
    let ser : Xml → Bytes := fun x => [x.kids.length]
    pyEq ser Ex.table (v.seen 1) (w.seen 2) = true ∧ pyLt ser Ex.table (v.seen 1) (w.seen 2) = false ∧
      pyEq ser Ex.table (b.seen 3) (b.seen 3) = false ∧ pyGt ser Ex.table (b.seen 3) (b.seen 3) = true :=
  ⟨_, _, _, rfl, rfl, rfl, rfl, rfl, rfl, rfl⟩

end Soapfish
