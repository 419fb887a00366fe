import Verif.PairedSurvive
import Verif.Spec.Conforms
/-
Lemmas for C107: counterparts of complete values are complete.
-/
namespace Soapfish

section
variable {R : ClsId → ClsId → Prop} {T T' : Table}

/-- A type that writes values as a type of numbers does is one. -/
theorem numeric_written {s s' : SType} (h : ∀ a, s.xmlvalue a = s'.xmlvalue a) (hs : s'.Numeric) : s.Numeric := by
  have h' : ∀ a, s.xmlvalue a = .ok (some a.toStr) := by
    intro a
    rw [h a]
    cases s' <;> first | exact hs.elim | rfl
  have h1 := h' (.other 0)
  have h2 := h' .unbounded
  cases s <;> first | trivial | (cases h1; done) | (exact absurd h2 (by decide))

mutual
/-- A complete value has a counterpart that is complete. -/
theorem complete_pair (hP : Paired R T T') (hT : T.Wf) (hT' : T'.Wf) : ∀ {t : FType} {v : Val}, Complete T t v →
    ∀ t', TypePair R t t' → ∃ v', ValPair R T T' v v' ∧ Complete T' t' v'
  | _, _, .simple h1 h2 h3, t', ht => by
    cases ht with
    | simple e1 _ e3 => exact ⟨_, .atom, .simple (by rw [← e3]; exact h1) h2 fun h => h3 (numeric_written e1 h)⟩
  | _, _, .inst h1 h2, t', ht => by
    cases ht with
    | complex hr =>
      obtain ⟨fs', e1, e2, e3⟩ := fields_of (R := R) (T := T) (T' := T') (P := CompleteField T') (hP _ _ hr).fields h1 (hT _) (hT' _)
        fun f f' v hf hm hv => completeField_pair hP hT hT' (h2 f v hm hv) f' hf
      exact ⟨.inst _ fs' none, .inst hr h1 e1 e2, .inst e1 e3⟩
theorem completeItem_pair (hP : Paired R T T') (hT : T.Wf) (hT' : T'.Wf) : ∀ {f : Field} {v : Val}, CompleteItem T f v →
    ∀ f', FieldPair R f f' → ∃ v', ValPair R T T' v v' ∧ CompleteItem T' f' v'
  | _, _, .nil h, f', hf => ⟨_, .nil, .nil (by rw [← hf.nillable]; exact h)⟩
  | _, _, .val h, f', hf => by
    obtain ⟨v', h1, h2⟩ := complete_pair hP hT hT' h _ hf.type
    exact ⟨v', h1, .val h2⟩
theorem completeField_pair (hP : Paired R T T') (hT : T.Wf) (hT' : T'.Wf) : ∀ {f : Field} {v : Val}, CompleteField T f v →
    ∀ f', FieldPair R f f' → ∃ v', ValPair R T T' v v' ∧ CompleteField T' f' v'
  | _, _, .absent h1 h2, f', hf => ⟨_, .atom, .absent (by rw [← hf.kind]; exact h1) (by rw [← hf.required]; exact h2)⟩
  | _, _, .single h1 h2, f', hf => by
    obtain ⟨v', h3, h4⟩ := completeItem_pair hP hT hT' h2 _ hf
    exact ⟨v', h3, .single (by rw [← hf.kind]; exact h1) h4⟩
  | _, _, .list h1 h2, f', hf => by
    obtain ⟨vs', hv, hs⟩ := valPairs_of (R := R) (T := T) (T' := T') (P := fun _ v' => CompleteItem T' f' v')
      fun v hv => completeItem_pair hP hT hT' (h2 v hv) f' hf
    refine ⟨.list true vs', .list hv, .list (by rw [← hf.kind]; exact h1) ?_⟩
    intro v hm
    obtain ⟨_, _, h⟩ := hs.mem_right hm
    exact h
end

end

end Soapfish
