import Verif.Meta
/-
C36: class metadata.
-/
namespace Soapfish

/-! ### Vocabulary -/

/-- `name` is a field of the class, described by `d`: some class in the resolution order binds it so, and no class before
it binds the name to anything. -/
def Declares (mro : List ClassDict) (name : Str) (d : Desc) : Prop :=
  ∃ before body after, mro = before ++ body :: after ∧ Dict.get? body name = some (.desc d) ∧
    ∀ b ∈ before, Dict.get? b name = none

/-- No descriptor is bound to two names. -/
def NoAlias (mro : List ClassDict) : Prop :=
  ∀ n n' d d', Declares mro n d → Declares mro n' d' → d.num = d'.num → n = n'

/-! ### Lemmas -/

theorem getattr_iff (mro : List ClassDict) (name : Str) (d : Desc) :
    getattrCls mro name = some (.desc d) ↔ Declares mro name d := by
  induction mro with
  | nil => simp [getattrCls, Declares]
  | cons b r ih =>
    simp only [getattrCls]
    constructor
    · intro h
      split at h
      · next i hi =>
        injection h with h; subst h
        exact ⟨[], b, r, rfl, hi, by simp⟩
      · next hn =>
        obtain ⟨p, q, s, h1, h2, h3⟩ := ih.1 h
        refine ⟨b :: p, q, s, by rw [h1]; rfl, h2, ?_⟩
        intro x hx
        rcases List.mem_cons.1 hx with rfl | hx
        · exact hn
        · exact h3 x hx
    · rintro ⟨p, q, s, h1, h2, h3⟩
      cases p with
      | nil =>
        injection h1 with h1 _; subst h1
        rw [h2]
      | cons x p =>
        injection h1 with h4 h5; subst h4
        rw [h3 b List.mem_cons_self]
        exact ih.2 ⟨p, q, s, h5, h2, fun y hy => h3 y (List.mem_cons_of_mem _ hy)⟩

theorem get_key {d : ClassDict} {n : Str} {i : Item} (h : Dict.get? d n = some i) : n ∈ d.map (·.1) := by
  induction d with
  | nil => simp [Dict.get?] at h
  | cons p r ih =>
    obtain ⟨k, v⟩ := p
    simp only [Dict.get?] at h
    split at h
    · next hk => simp [hk]
    · exact List.mem_cons_of_mem _ (ih h)

theorem mem_uniq {l : List Str} {a : Str} : a ∈ uniq l ↔ a ∈ l := by
  induction l with
  | nil => simp [uniq]
  | cons b l ih =>
    unfold uniq
    split
    · next h =>
      rw [ih]
      constructor
      · exact List.mem_cons_of_mem _
      · intro h'
        rcases List.mem_cons.1 h' with rfl | h'
        · exact h
        · exact h'
    · simp [ih]

theorem uniq_nodup (l : List Str) : (uniq l).Nodup := by
  induction l with
  | nil => exact .nil
  | cons b l ih =>
    unfold uniq
    split
    · exact ih
    · next h => exact List.nodup_cons.2 ⟨fun h' => h (mem_uniq.1 h'), ih⟩

theorem insertBy_perm {α : Type} (le : α → α → Bool) (a : α) (l : List α) : (insertBy le a l).Perm (a :: l) := by
  induction l with
  | nil => exact .refl _
  | cons b l ih =>
    unfold insertBy
    split
    · exact .refl _
    · exact (List.Perm.cons b ih).trans (.swap a b l)

theorem sortBy_perm {α : Type} (le : α → α → Bool) (l : List α) : (sortBy le l).Perm l := by
  induction l with
  | nil => exact .refl _
  | cons a l ih => exact (insertBy_perm le a _).trans (.cons a ih)

theorem insertBy_sorted {α : Type} {le : α → α → Bool} (ht : ∀ a b c, le a b = true → le b c = true → le a c = true)
    (htot : ∀ a b, le a b = false → le b a = true) (a : α) {l : List α} (h : l.Pairwise fun x y => le x y = true) :
    (insertBy le a l).Pairwise fun x y => le x y = true := by
  induction l with
  | nil => exact List.pairwise_singleton _ _
  | cons b l ih =>
    rw [List.pairwise_cons] at h
    unfold insertBy
    split
    · next hab =>
      refine List.pairwise_cons.2 ⟨fun c hc => ?_, List.pairwise_cons.2 h⟩
      rcases List.mem_cons.1 hc with rfl | hc
      · exact hab
      · exact ht a b c hab (h.1 c hc)
    · next hab =>
      refine List.pairwise_cons.2 ⟨fun c hc => ?_, ih h.2⟩
      rcases List.mem_cons.1 ((insertBy_perm le a l).mem_iff.1 hc) with rfl | hc
      · exact htot _ _ (by simpa using hab)
      · exact h.1 c hc

theorem sortBy_sorted {α : Type} {le : α → α → Bool} (ht : ∀ a b c, le a b = true → le b c = true → le a c = true)
    (htot : ∀ a b, le a b = false → le b a = true) (l : List α) : (sortBy le l).Pairwise fun x y => le x y = true := by
  induction l with
  | nil => exact .nil
  | cons a l ih => exact insertBy_sorted ht htot a ih

theorem mem_dir {mro : List ClassDict} {n : Str} {d : Desc} (h : Declares mro n d) : n ∈ dirCls mro := by
  obtain ⟨p, q, s, h1, h2, _⟩ := h
  rw [dirCls, (sortBy_perm _ _).mem_iff, mem_uniq, List.mem_flatMap]
  exact ⟨q, by rw [h1]; simp, get_key h2⟩

theorem dir_nodup (mro : List ClassDict) : (dirCls mro).Nodup := by
  have h := sortBy_perm strLe (uniq (mro.flatMap fun d => d.map (·.1)))
  exact h.nodup_iff.2 (uniq_nodup _)

/-- The descriptors bound to the names of a list. -/
def found (mro : List ClassDict) (L : List Str) : List Desc :=
  L.filterMap fun n => match getattrCls mro n with
    | some (.desc d) => some d
    | _ => none

theorem found_cons (mro : List ClassDict) (n : Str) (L : List Str) : found mro (n :: L) =
    (match getattrCls mro n with | some (.desc d) => [d] | _ => []) ++ found mro L := by
  unfold found
  rw [List.filterMap_cons]
  cases getattrCls mro n with
  | none => rfl
  | some i => cases i <;> rfl

theorem isField_iff (k : Kind) : k.isField = true ↔ k ≠ .attribute ∧ k.isGroup = false := by cases k <;> simp [Kind.isField, Kind.isGroup]

theorem scan_lists (mro : List ClassDict) (L : List Str) (s : Scan) :
    (L.foldl (scanOne mro) s).fields = s.fields ++ (found mro L).filter (·.kind.isField) ∧
    (L.foldl (scanOne mro) s).attributes = s.attributes ++ (found mro L).filter (·.kind = .attribute) ∧
    (L.foldl (scanOne mro) s).groups = s.groups ++ (found mro L).filter (·.kind.isGroup) := by
  induction L generalizing s with
  | nil => simp [found]
  | cons n L ih =>
    rw [List.foldl_cons, found_cons]
    obtain ⟨h1, h2, h3⟩ := ih (scanOne mro s n)
    rw [h1, h2, h3]
    unfold scanOne
    cases getattrCls mro n with
    | none => simp
    | some i =>
      cases i with
      | other => simp
      | desc d =>
        by_cases ha : d.kind = .attribute
        · simp [ha, Kind.isField, Kind.isGroup]
        · cases hg : d.kind.isGroup with
          | true =>
            have : d.kind.isField = false := by
              cases hf : d.kind.isField with
              | false => rfl
              | true => have := ((isField_iff _).1 hf).2; rw [hg] at this; cases this
            simp [ha, hg, this]
          | false =>
            have : d.kind.isField = true := (isField_iff _).2 ⟨ha, hg⟩
            simp [ha, hg, this]

theorem scan_names (mro : List ClassDict) (hA : NoAlias mro) (n : Str) (d : Desc) (hd : Declares mro n d) (L : List Str) :
    ∀ s : Scan, (n ∈ L ∨ s.names d.num = n) → (L.foldl (scanOne mro) s).names d.num = n := by
  induction L with
  | nil => intro s h; rcases h with h | h; cases h; exact h
  | cons m L ih =>
    intro s h
    rw [List.foldl_cons]
    apply ih
    by_cases hm : m = n
    · subst hm
      right
      have : getattrCls mro m = some (.desc d) := (getattr_iff _ _ _).2 hd
      unfold scanOne; rw [this]; simp only
      split
      · simp
      · split <;> simp
    · rcases h with h | h
      · rcases List.mem_cons.1 h with h | h
        · exact absurd h.symm hm
        · exact .inl h
      · right
        unfold scanOne
        cases hg : getattrCls mro m with
        | none => exact h
        | some i =>
          cases i with
          | other => exact h
          | desc d' =>
            have hne : d.num ≠ d'.num := fun he => hm (hA m n d' d ((getattr_iff _ _ _).1 hg) hd he.symm)
            simp only
            split
            · simp [hne, h]
            · split <;> simp [hne, h]

theorem mem_found {mro : List ClassDict} {d : Desc} : d ∈ found mro (dirCls mro) ↔ ∃ n, Declares mro n d := by
  simp only [found, List.mem_filterMap]
  constructor
  · rintro ⟨n, _, h⟩
    split at h
    · next d' hd =>
      injection h with h; subst h
      exact ⟨n, (getattr_iff _ _ _).1 hd⟩
    · cases h
  · rintro ⟨n, h⟩
    exact ⟨n, mem_dir h, by rw [(getattr_iff _ _ _).2 h]⟩

theorem found_nodup {mro : List ClassDict} (hA : NoAlias mro) (L : List Str) (hL : L.Nodup) :
    (found mro L).Pairwise fun a b => a.num ≠ b.num := by
  induction L with
  | nil => exact .nil
  | cons n L ih =>
    rw [found_cons]
    obtain ⟨h1, h2⟩ := List.nodup_cons.1 hL
    cases hg : getattrCls mro n with
    | none => simpa using ih h2
    | some i =>
      cases i with
      | other => simpa using ih h2
      | desc d =>
        simp only [List.singleton_append, List.pairwise_cons]
        refine ⟨fun d' hd' he => ?_, ih h2⟩
        simp only [found, List.mem_filterMap] at hd'
        obtain ⟨m, hm, hx⟩ := hd'
        split at hx
        · next d2 hd2 =>
          injection hx with hx; subst hx
          have := hA n m d d2 ((getattr_iff _ _ _).1 hg) ((getattr_iff _ _ _).1 hd2) he
          subst this; exact h1 hm
        · cases hx

theorem sortNum_le (l : List Desc) : (sortNum l).Pairwise fun a b => a.num ≤ b.num := by
  have := sortBy_sorted (le := fun a b : Desc => decide (a.num ≤ b.num))
    (by intro a b c h1 h2; simp only [decide_eq_true_eq] at *; omega)
    (by intro a b h; simp only [decide_eq_true_eq, decide_eq_false_iff_not] at *; omega) l
  exact this.imp (by intro a b h; simpa using h)

theorem sortNum_perm (l : List Desc) : (sortNum l).Perm l := sortBy_perm _ _

theorem sortNum_lt {l : List Desc} (h : l.Pairwise fun a b => a.num ≠ b.num) : (sortNum l).Pairwise fun a b => a.num < b.num := by
  have h1 : (sortNum l).Pairwise fun a b => a.num ≠ b.num :=
    (sortNum_perm l).symm.pairwise h (fun h => Ne.symm h)
  exact (h1.and (sortNum_le l)).imp (by intro a b h; omega)

/-- Strictly increasing lists with the same members are equal. -/
theorem increasing_unique {l m : List Desc} (hl : l.Pairwise fun a b => a.num < b.num)
    (hm : m.Pairwise fun a b => a.num < b.num) (h : ∀ d, d ∈ l ↔ d ∈ m) : l = m := by
  induction l generalizing m with
  | nil =>
    cases m with
    | nil => rfl
    | cons d m => exact absurd ((h d).2 List.mem_cons_self) (by simp)
  | cons a l ih =>
    cases m with
    | nil => exact absurd ((h a).1 List.mem_cons_self) (by simp)
    | cons b m =>
      rw [List.pairwise_cons] at hl hm
      have hab : a = b := by
        rcases List.mem_cons.1 ((h a).1 List.mem_cons_self) with h1 | h1
        · exact h1
        · rcases List.mem_cons.1 ((h b).2 List.mem_cons_self) with h2 | h2
          · exact h2.symm
          · have := hl.1 b h2; have := hm.1 a h1; omega
      subst hab
      rw [ih hl.2 hm.2]
      intro d
      constructor
      · intro hd
        rcases List.mem_cons.1 ((h d).1 (List.mem_cons_of_mem _ hd)) with h1 | h1
        · subst h1; exact absurd (hl.1 d hd) (Nat.lt_irrefl _)
        · exact h1
      · intro hd
        rcases List.mem_cons.1 ((h d).2 (List.mem_cons_of_mem _ hd)) with h1 | h1
        · subst h1; exact absurd (hm.1 d hd) (Nat.lt_irrefl _)
        · exact h1

theorem perm_split (l : List Desc) :
    (l.filter (·.kind.isField) ++ l.filter (·.kind.isGroup) ++ l.filter (·.kind = .attribute)).Perm l := by
  induction l with
  | nil => exact .refl _
  | cons d l ih =>
    by_cases ha : d.kind = .attribute
    · simp only [List.filter_cons, ha, decide_true, if_true]
      exact (List.perm_middle).trans (.cons d ih)
    · cases hg : d.kind.isGroup with
      | true =>
        have h1 : d.kind.isField = false := by
          cases hf : d.kind.isField with
          | false => rfl
          | true => have := ((isField_iff _).1 hf).2; rw [hg] at this; cases this
        simp only [List.filter_cons, h1, hg, ha, Bool.false_eq_true, if_false, decide_false, if_true, List.append_assoc]
        refine List.perm_middle.trans (.cons d ?_)
        rw [List.append_assoc] at ih; exact ih
      | false =>
        have h1 : d.kind.isField = true := (isField_iff _).2 ⟨ha, hg⟩
        simp only [List.filter_cons, h1, hg, ha, Bool.false_eq_true, if_false, decide_false, if_true, List.cons_append]
        exact .cons d ih

theorem meta_all_perm (mro : List ClassDict) : (metaInfo mro).all.Perm (found mro (dirCls mro)) := by
  obtain ⟨h1, h2, h3⟩ := scan_lists mro (dirCls mro) {}
  simp only [metaInfo, h1, h2, h3, List.nil_append]
  refine (sortNum_perm _).trans (.trans ?_ (perm_split _))
  exact ((sortNum_perm _).append (sortNum_perm _)).append (sortNum_perm _)

theorem meta_all_lt {mro : List ClassDict} (hA : NoAlias mro) : (metaInfo mro).all.Pairwise fun a b => a.num < b.num := by
  have h1 : (metaInfo mro).all.Pairwise fun a b => a.num ≠ b.num :=
    (meta_all_perm mro).symm.pairwise (found_nodup hA _ (dir_nodup mro)) (fun h => Ne.symm h)
  have h2 : (metaInfo mro).all.Pairwise fun a b => a.num ≤ b.num := sortNum_le _
  exact (h1.and h2).imp (by intro a b h; omega)

/-! ### The property -/

/-- C36. The field list of a class consists of exactly the declared and inherited (not rebound) descriptors, in strictly
increasing creation order, hence each once; and every descriptor knows the name it is bound to. -/
theorem C36_all_fields (mro : List ClassDict) (hA : NoAlias mro) :
    (∀ d, d ∈ (metaInfo mro).all ↔ ∃ n, Declares mro n d) ∧
    ((metaInfo mro).all.Pairwise fun a b => a.num < b.num) ∧
    ∀ n d, Declares mro n d → (metaInfo mro).name d.num = n := by
  refine ⟨fun d => ?_, meta_all_lt hA, fun n d h => ?_⟩
  · rw [(meta_all_perm mro).mem_iff, mem_found]
  · exact scan_names mro hA n d h _ _ (.inl (mem_dir h))

/-- C36. The lists of elements, attributes and groups are the corresponding parts of the field list, in the same
order. -/
theorem C36_parts (mro : List ClassDict) (hA : NoAlias mro) :
    (metaInfo mro).fields = (metaInfo mro).all.filter (·.kind.isField) ∧
    (metaInfo mro).attributes = (metaInfo mro).all.filter (·.kind = .attribute) ∧
    (metaInfo mro).groups = (metaInfo mro).all.filter (·.kind.isGroup) ∧
    (metaInfo mro).allelements = (metaInfo mro).all.filter (·.kind ≠ .attribute) := by
  have hlt := meta_all_lt hA
  have hp := meta_all_perm mro
  have hfn := found_nodup hA _ (dir_nodup mro)
  obtain ⟨h1, h2, h3⟩ := scan_lists mro (dirCls mro) {}
  have part : ∀ p : Desc → Bool, sortNum ((found mro (dirCls mro)).filter p) = (metaInfo mro).all.filter p := by
    intro p
    refine increasing_unique (sortNum_lt (hfn.filter p)) (hlt.filter p) fun d => ?_
    rw [(sortNum_perm _).mem_iff, List.mem_filter, List.mem_filter, hp.mem_iff]
  refine ⟨?_, ?_, ?_, ?_⟩
  · rw [← part]; simp only [metaInfo, h1, List.nil_append]
  · rw [← part]; simp only [metaInfo, h2, List.nil_append]
  · rw [← part]; simp only [metaInfo, h3, List.nil_append]
  · have hperm : (metaInfo mro).allelements.Perm ((found mro (dirCls mro)).filter (·.kind ≠ .attribute)) := by
      simp only [metaInfo, h1, h3, List.nil_append]
      refine (sortNum_perm _).trans (((sortNum_perm _).append (sortNum_perm _)).trans ?_)
      refine .trans ?_ ((perm_split ((found mro (dirCls mro)).filter (·.kind ≠ .attribute))))
      rw [List.filter_filter, List.filter_filter, List.filter_filter]
      have e1 : ∀ d : Desc, (d.kind.isField && decide (d.kind ≠ .attribute)) = d.kind.isField := by
        intro d; cases d.kind <;> rfl
      have e2 : ∀ d : Desc, (d.kind.isGroup && decide (d.kind ≠ .attribute)) = d.kind.isGroup := by
        intro d; cases d.kind <;> rfl
      have e3 : ∀ d : Desc, (decide (d.kind = .attribute) && decide (d.kind ≠ .attribute)) = false := by
        intro d; cases d.kind <;> rfl
      have e4 : ∀ l : List Desc, l.filter (fun _ => false) = [] := by intro l; induction l <;> simp_all
      simp only [e1, e2, e3, e4, List.append_nil]
      exact .refl _
    refine increasing_unique ?_ (hlt.filter _) fun d => ?_
    · have ha : (metaInfo mro).allelements.Pairwise fun a b => a.num ≠ b.num :=
        hperm.symm.pairwise (hfn.filter _) (fun h => Ne.symm h)
      have hb : (metaInfo mro).allelements.Pairwise fun a b => a.num ≤ b.num := sortNum_le _
      exact (ha.and hb).imp (by intro a b h; omega)
    · rw [hperm.mem_iff, List.mem_filter, List.mem_filter, hp.mem_iff]

/-- C36. The names of the fields are pairwise different (this is the hypothesis `Table.Wf` of other theorems). -/
theorem C36_names_distinct (mro : List ClassDict) (hA : NoAlias mro) :
    ((metaInfo mro).all.map fun d => (metaInfo mro).name d.num).Nodup := by
  obtain ⟨h1, h2, h3⟩ := C36_all_fields mro hA
  rw [List.Nodup, List.pairwise_map]
  refine h2.imp_of_mem fun {a b} ha hb hab he => ?_
  obtain ⟨n, hn⟩ := (h1 a).1 ha
  obtain ⟨m, hm⟩ := (h1 b).1 hb
  rw [h3 n a hn, h3 m b hm] at he
  subst he
  have e1 := (getattr_iff _ _ _).2 hn
  have e2 := (getattr_iff _ _ _).2 hm
  rw [e1] at e2
  injection e2 with e2; injection e2 with e2; subst e2
  exact Nat.lt_irrefl _ hab

/-- C36. A subclass has the fields its body binds, and the inherited ones whose names its body does not bind (to a
descriptor or to anything else). -/
theorem C36_subclass (body : ClassDict) (bases : List ClassDict) (n : Str) (d : Desc) :
    Declares (body :: bases) n d ↔ Dict.get? body n = some (.desc d) ∨ (Dict.get? body n = none ∧ Declares bases n d) := by
  rw [← getattr_iff, ← getattr_iff, getattrCls]
  cases Dict.get? body n <;> simp

/-! ### Examples -/

namespace Ex

/-- `class Base: z = Element(..); a = Attribute(..); g = Ref(..); b = Element(..)` and
`class Sub(Base): z = None; m = Element(..)`. -/
def baseBody : ClassDict := [(py"z", .desc ⟨.element, 0⟩), (py"a", .desc ⟨.attribute, 1⟩), (py"g", .desc ⟨.ref, 2⟩),
  (py"b", .desc ⟨.element, 3⟩), (py"__module__", .other)]
def subBody : ClassDict := [(py"z", .other), (py"m", .desc ⟨.element, 4⟩), (py"__module__", .other)]

example : (metaInfo [baseBody]).all.map (·.num) = [0, 1, 2, 3] ∧ (metaInfo [subBody, baseBody]).all.map (·.num) = [1, 2, 3, 4] ∧
    (metaInfo [subBody, baseBody]).fields.map (·.num) = [3, 4] ∧ (metaInfo [subBody, baseBody]).name 4 = py"m" := by
  decide +kernel

end Ex

/-- C36, the exception: in `class C: a = b = Element(..)` the one descriptor is listed twice, under the later name. -/
theorem C36_alias : ∃ (body : ClassDict) (d : Desc), Declares [body] py"a" d ∧ Declares [body] py"b" d ∧
    (metaInfo [body]).all = [d, d] ∧ (metaInfo [body]).name d.num = py"b" :=
  ⟨[(py"a", .desc ⟨.element, 0⟩), (py"b", .desc ⟨.element, 0⟩)], ⟨.element, 0⟩, ⟨[], _, [], rfl, rfl, by simp⟩,
    ⟨[], _, [], rfl, rfl, by simp⟩, by decide +kernel, by decide +kernel⟩

end Soapfish
