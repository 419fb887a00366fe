import Verif.Spec.Loaded
import Verif.PairedSurvive
import Verif.RunTableLemmas
import Verif.Props.Twin
/-
The classes of a generated module in a program.
-/
namespace Soapfish

section
variable {Q : ClsId → ClsId → Prop} {T T0 : Table} {v : Version}

theorem placed_at (T : Table) (v : Version) (i : ClsId) : soapTable v T.placed (i + 8) = (T i).placed := rfl

theorem placed_kind (f : Field) : f.placed.kind = f.kind := rfl

theorem all2_map_left {α β γ : Type} {R : β → γ → Prop} {f : α → β} {as : List α} {cs : List γ}
    (h : All2 (fun a c => R (f a) c) as cs) : All2 R (as.map f) cs := by
  induction h with
  | nil => exact .nil
  | cons h _ ih => exact .cons h ih

/-- Classes go together wherever they are. -/
theorem Paired.placed (h : Paired Q T T0) : Paired (fun c c' => ∃ i, Q i c' ∧ c = i + 8) (soapTable v T.placed) T0 := by
  rintro c c' ⟨i, hi, rfl⟩
  have hc := h i c' hi
  rw [placed_at]
  refine ⟨all2_map_left (hc.fields.imp fun f f' hf => ?_), hc.choice, hc.schema, hc.isGroup, hc.header⟩
  refine { hf with type := ?_ }
  have ht := hf.type
  show TypePair _ f.type.placed f'.type
  generalize f.type = a at ht
  generalize f'.type = b at ht
  cases ht with
  | simple h1 h2 h3 h4 => exact .simple h1 h2 h3 h4
  | complex hr => exact .complex ⟨_, hr, rfl⟩

theorem placed_flat (n : Nat) (i : ClsId) : flat (soapTable v T.placed) n (i + 8) = (flat T n i).map Field.placed := by
  induction n generalizing i with
  | zero => rfl
  | succ n ih =>
    unfold flat
    rw [placed_at]
    show ((T i).fields.map Field.placed).flatMap _ = _
    induction (T i).fields with
    | nil => rfl
    | cons f l ihl =>
      rw [List.map_cons, List.flatMap_cons, List.flatMap_cons, List.map_append, ihl]
      congr 1
      rw [placed_kind]
      show (match f.kind, f.type.placed with
        | .ref, .complex g => flat (soapTable v T.placed) n g
        | _, _ => [f.placed]) = _
      cases f.kind with
      | ref =>
        cases ht : f.type with
        | complex c => exact ih c
        | _ => rfl
      | _ => cases f.type <;> rfl

theorem placed_unambiguous {i : ClsId} (h : Unambiguous T i) : Unambiguous (soapTable v T.placed) (i + 8) := by
  intro n
  rw [placed_flat, List.pairwise_map]
  exact (h n).imp fun h => h

theorem library_at (v : Version) (U : Table) : ∀ c, c < 8 → soapTable v U c = soapTable v noClass c := by
  intro c hc
  match c with
  | 0 | 1 | 2 | 3 | 4 | 5 | 6 | 7 => rfl
  | i + 8 => exact absurd hc (Nat.not_lt.2 (Nat.le_add_left 8 i))

def isNoneVal : Val → Bool
  | .atom .none => true
  | _ => false

theorem isNoneVal_iff {v : Val} (h : isNoneVal v = true) : v = Val.none := by
  unfold isNoneVal at h
  split at h
  · rfl
  · cases h

theorem library_ok : ∀ (v : Version) c, c < 8 → ((soapTable v noClass c).fields.map (·.name)).Nodup ∧
    c ∈ (soapTable v noClass c).mro ∧ (soapTable v noClass c).fields.all (fun f => isNoneVal f.default) = true := by
  intro v
  cases v <;> decide +kernel

theorem placed_sane (h : T.Sane) (hd : ∀ c, ∀ f ∈ (T c).fields, f.default = Val.none) : (soapTable v T.placed).Sane := by
  have cases8 : ∀ c : ClsId, c < 8 ∨ ∃ i, c = i + 8 := by
    intro c
    rcases Nat.lt_or_ge c 8 with h | h
    · exact .inl h
    · exact .inr ⟨c - 8, (Nat.sub_add_cancel h).symm⟩
  refine ⟨fun c => ?_, fun c => ?_, fun c f c' hf ht => .inr ?_⟩
  · rcases cases8 c with hc | ⟨i, rfl⟩
    · rw [library_at v _ c hc]
      exact (library_ok v c hc).1
    · show ((T i).placed.fields.map _).Nodup
      have := h.names i
      unfold Cls.placed
      rw [List.map_map]
      exact this
  · rcases cases8 c with hc | ⟨i, rfl⟩
    · rw [library_at v _ c hc]
      exact (library_ok v c hc).2.1
    · show i + 8 ∈ (T i).mro.map (· + 8) ++ [cComplex]
      exact List.mem_append_left _ (List.mem_map.2 ⟨i, h.self i, rfl⟩)
  · have : f.default = Val.none := by
      rcases cases8 c with hc | ⟨i, rfl⟩
      · rw [library_at v _ c hc] at hf
        exact isNoneVal_iff (List.all_eq_true.1 (library_ok v c hc).2.2 f hf)
      · obtain ⟨f', hf', rfl⟩ := List.mem_map.1 (show f ∈ (T i).fields.map Field.placed from hf)
        exact hd i f' hf'
    rw [this]; exact .none

end

/-- No field of a generated class has a default. -/
theorem moduleTable_defaults {compile : Str → Pattern} {iso : Iso} {env : PyEnv} {s : GSchema} {T : Table}
    (hT : moduleTable compile iso env s = some T) : ∀ c, ∀ f ∈ (T c).fields, f.default = Val.none := by
  intro i f hf
  have : ∀ {os : List (Str × FieldObj)} {fs : List Field},
      All2 (fun p f => FieldObj.field compile iso env p.1 p.2 = some f) os fs → ∀ f ∈ fs, f.default = Val.none := by
    intro os fs h
    induction h with
    | nil => intro f hf; exact absurd hf List.not_mem_nil
    | cons h _ ih =>
      intro f hf
      rcases List.mem_cons.1 hf with rfl | hf
      · exact (field_name h).2.1
      · exact ih f hf
  rcases moduleTable_at hT i with ⟨p, h1, h2⟩ | h
  · obtain ⟨n, x⟩ := p
    cases x with
    | complex o => exact this (cls_parts h2).1 f hf
    | simple o => rw [← Option.some.inj h2] at hf; exact absurd hf List.not_mem_nil
  · rw [h] at hf; exact absurd hf List.not_mem_nil

/-- The type of an element of a service with one schema. -/
theorem runs_element {W : World} {S : Service} {o : ServiceObj} {type : GTop → FType} {header : HeaderObj → ClsId}
    {cls : Str → ClsId} (h : Runs W S o type header cls) {g : GSchema} (hg : o.schemas = [g]) (hp : 0 < W.depth) (n : Str) :
    typeFound (S.findElement W n) = .ok ((g.elements.find? fun e => e.name = n).map type) := by
  have hs := h.schemas
  rw [hg] at hs
  unfold Service.findElement
  obtain ⟨k, hk⟩ : ∃ k, W.depth = k + 1 := ⟨W.depth - 1, by omega⟩
  rw [hk]
  generalize S.schemas = l at hs
  cases hs with
  | cons hi hnil =>
    cases hnil
    obtain ⟨h1, h2, h3⟩ := hi
    have hf := typeFound_element (n := n) (k := k) h1 h2
    rw [h3 n] at hf
    rw [← hf, firstE]
    cases elementByName W n (k + 1) _ with
    | error e => rfl
    | ok o => cases o <;> rfl

theorem typeFound_some {x : Except Exn (Option SElem)} {t : FType} (h : typeFound x = .ok (some t)) :
    ∃ e, x = .ok (some e) ∧ e.type = t := by
  cases x with
  | error e => cases h
  | ok o =>
    cases o with
    | none => cases h
    | some e => exact ⟨e, rfl, Option.some.inj (Except.ok.inj h)⟩

theorem find_all2 {α β : Type} {R : α → β → Prop} {p : α → Bool} {q : β → Bool} {as : List α} {bs : List β}
    (h : All2 R as bs) (hpq : ∀ a b, R a b → p a = q b) {a : α} (ha : as.find? p = some a) :
    ∃ b, bs.find? q = some b ∧ R a b := by
  induction h with
  | nil => cases ha
  | @cons x y _ _ hxy _ ih =>
    rw [List.find?_cons] at ha ⊢
    rw [← hpq x y hxy]
    cases hx : p x with
    | true => rw [hx] at ha; cases ha; exact ⟨y, rfl, hxy⟩
    | false => rw [hx] at ha; exact ih ha

end Soapfish
