import Verif.Spec.Validated
import Verif.ComplexLemmas
import Verif.Props.CodeFields
/-
Lemmas for C108: valid elements stay valid when they are serialised and read again.
-/
namespace Soapfish

theorem back_kind {a b : Xml} (h : Back a b) : (match a with | .comment => false | _ => true) = (match b with | .comment => false | _ => true) := by
  cases h <;> rfl

theorem withoutComments_back {ks ks' : List Xml} (h : All2 Back ks ks') : All2 Back (withoutComments ks) (withoutComments ks') := by
  induction h with
  | nil => exact .nil
  | cons h _ ih =>
    cases h with
    | elem h1 h2 => exact .cons (.elem h1 h2) ih
    | comment => exact ih
    | pi => exact .cons .pi ih

theorem withoutComments_sub {P : Xml → Prop} {ks : List Xml} (h : ∀ k ∈ ks, P k) : ∀ k ∈ withoutComments ks, P k :=
  fun k hk => h k (List.mem_filter.1 hk).1

theorem textBack_leaf {t t' : Option Str} (h : TextBack t t' []) : t'.getD [] = t.getD [] ∧ (BlankText t → BlankText t') := by
  unfold TextBack at h
  rw [if_pos rfl] at h
  subst h
  rcases t with _ | _ | ⟨c, cs⟩
  · exact ⟨rfl, id⟩
  · exact ⟨rfl, fun _ s hs => by cases hs⟩
  · exact ⟨rfl, id⟩

section
variable {prefixes : List (Option Str)} {d : DSchema} {means : Str → Str → Prop} {LA LE : Builtin → Str → Prop}

mutual
theorem content_back : ∀ {ct as ks}, ValidContent prefixes d means LA LE ct as ks → ∀ ks', All2 Back ks ks' →
    (∀ k ∈ ks', Unmixed k) → ValidContent prefixes d means LA LE ct as ks'
  | _, _, _, .sequence h1 h2 h3 h4, _, hb, hu =>
    .sequence h1 h2 h3 (sequence_back h4 _ (withoutComments_back hb) (withoutComments_sub hu))
theorem sequence_back : ∀ {es xs}, ValidSequence prefixes d means LA LE es xs → ∀ xs', All2 Back xs xs' →
    (∀ k ∈ xs', Unmixed k) → ValidSequence prefixes d means LA LE es xs'
  | _, _, .nil, _, .nil, _ => .nil
  | _, _, .cons (block := block) h1 h2 h3, xs', hb, hu => by
    obtain ⟨b', r', rfl, hb1, hb2⟩ := All2.split hb
    refine .cons (fun x hx => ?_) (by rw [← hb1.length]; exact h2)
      (sequence_back h3 _ hb2 fun k hk => hu k (List.mem_append_right _ hk))
    obtain ⟨y, hy, hyx⟩ := hb1.mem_right hx
    exact element_back (h1 y hy) _ hyx (hu x (List.mem_append_left _ hx))
theorem element_back : ∀ {e x}, ValidElement prefixes d means LA LE e x → ∀ x', Back x x' → Unmixed x' →
    ValidElement prefixes d means LA LE e x'
  | _, _, .nil h1 h2, _, .elem (t' := t') ht .nil, _ => by
    have : t' = none := by unfold TextBack at ht; rw [if_pos rfl] at ht; exact ht
    subst this
    exact .nil h1 h2
  | _, _, .text h1 h2 h3, _, .elem ht .nil, _ => .text h1 h2 (by rw [(textBack_leaf ht).1]; exact h3)
  | _, _, .content h1 h2 h3 h4 h5 h6 h7 h8, _, .elem ht hk, .elem hu1 hu2 => by
    refine .content h1 h2 h3 h4 h5 h6 ?_ (content_back h8 _ hk hu2)
    rcases hu1 with rfl | hu1
    · cases hk
      exact (textBack_leaf ht).2 h7
    · exact hu1
end

end

end Soapfish
