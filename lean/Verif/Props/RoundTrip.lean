import Verif.Props.ParseTypes
import Verif.Props.Render
import Verif.Spec.RoundTrip
import Verif.Props.Integers
import Verif.Props.Strings
import Verif.Props.Dates
import Verif.Props.Numbers
/-
Writing and reading back: C25, C30.
-/
namespace Soapfish

/-! ### Names -/

theorem clash_symm {f g : Field} (h : Clash f g) : Clash g f := by
  rcases h with ⟨h1, h2, h3⟩ | ⟨h1, h2, h3⟩
  · exact .inl ⟨h2, h1, h3.symm⟩
  · refine .inr ⟨h2, h1, ?_⟩
    rcases h3 with h | h | h | h
    · exact .inr (.inr (.inl h))
    · exact .inr (.inr (.inr h))
    · exact .inl h
    · exact .inr (.inl h)

/-- What one field brings into the flattened list. -/
def seg (T : Table) (n : Nat) (f : Field) : List Field :=
  match f.kind, f.type with
  | .ref, .complex g => flat T n g
  | _, _ => [f]

theorem flat_succ (T : Table) (n : Nat) (c : ClsId) : flat T (n + 1) c = (T c).fields.flatMap (seg T n) := rfl

theorem seg_of_ne {T : Table} {n : Nat} {f : Field} (h : f.kind ≠ .ref) : seg T n f = [f] := by
  unfold seg
  cases hk : f.kind <;> first | rfl | exact absurd hk h

theorem seg_disjoint {T : Table} {n : Nat} {c : ClsId}
    (hu : (flat T (n + 1) c).Pairwise fun f g => ¬ Clash f g) {f g : Field} (hf : f ∈ (T c).fields)
    (hg : g ∈ (T c).fields) (hne : f.name ≠ g.name) : ∀ a ∈ seg T n f, ∀ b ∈ seg T n g, ¬ Clash a b := by
  rw [flat_succ, List.pairwise_flatMap] at hu
  obtain ⟨_, hu⟩ := hu
  intro a ha b hb hc
  have key : ∀ (L : List Field), L.Pairwise (fun a₁ a₂ => ∀ x ∈ seg T n a₁, ∀ y ∈ seg T n a₂, ¬ Clash x y) →
      f ∈ L → g ∈ L → False := by
    intro L hL
    induction L with
    | nil => intro h; cases h
    | cons x xs ih =>
      intro h1 h2
      rw [List.pairwise_cons] at hL
      rcases List.mem_cons.1 h1 with e1 | h1'
      · rcases List.mem_cons.1 h2 with e2 | h2'
        · exact hne (by rw [e1, e2])
        · subst e1; exact hL.1 g h2' a ha b hb hc
      · rcases List.mem_cons.1 h2 with e2 | h2'
        · subst e2; exact hL.1 f h1' b hb a ha (clash_symm hc)
        · exact ih hL.2 h1' h2'
  exact key _ hu hf hg

theorem tag_claimed (f : Field) : f.writtenName = f.name ∨ f.tagname = some f.writtenName := by
  unfold Field.writtenName
  split
  · exact .inl rfl
  · next h =>
    refine .inr ?_
    cases ht : f.tagname with
    | none => exact absurd (.inl ht) h
    | some s => rfl

theorem childName_loc (f : Field) (ns : Option Str) (q : Bool) : (childName f ns q).loc = f.writtenName := by
  unfold childName; split <;> rfl

/-! ### What is written -/

/-- Every child of the output belongs to a field of the (flattened) list, every attribute to an attribute of it. -/
def OutIn (L : List Field) (o : Out) : Prop :=
  (∀ k ∈ o.kids, ∃ h ∈ L, h.kind ≠ .attribute ∧ ∃ q a t s, k = .elem q a t s ∧ q.loc = h.writtenName) ∧
  (∀ a ∈ o.attrs, ∃ h ∈ L, h.kind = .attribute ∧ a.1 = ⟨none, h.writtenName⟩)

theorem outIn_flatten {L : List Field} {parts : List Out} {o : Out} (hk : o.kids = (parts.map (·.kids)).flatten)
    (ha : o.attrs = (parts.map (·.attrs)).flatten) (h : ∀ p ∈ parts, OutIn L p) : OutIn L o := by
  constructor
  · intro k hkk
    rw [hk, List.mem_flatten] at hkk
    obtain ⟨l, hl, hkl⟩ := hkk
    obtain ⟨p, hp, rfl⟩ := List.mem_map.1 hl
    exact (h p hp).1 k hkl
  · intro a haa
    rw [ha, List.mem_flatten] at haa
    obtain ⟨l, hl, hal⟩ := haa
    obtain ⟨p, hp, rfl⟩ := List.mem_map.1 hl
    exact (h p hp).2 a hal

theorem field_outIn {T : Table} {N n : Nat} {f : Field} {v : Val} {ns : Option Str} {q : Bool} {o : Out}
    (hs : FieldSurvives T N f v)
    (ih : ∀ c fs x ns q o, Survives T N (.complex c) (.inst c fs x) → renderCls T n c (.inst c fs x) ns q = .ok o →
      OutIn (flat T n c) o)
    (h : renderField T (renderCls T n) f v ns q = .ok o) : OutIn (seg T n f) o := by
  cases hs with
  | absent hk _ =>
    simp only [renderField, hk, Val.isNone, if_true] at h
    injection h with h; subst h
    exact ⟨by simp, by simp⟩
  | nil hk _ _ =>
    simp only [renderField, hk, Val.isNone, Bool.false_eq_true, if_false, bind_eq_ok] at h
    obtain ⟨k, hc, h⟩ := h
    injection h with h; subst h
    rw [seg_of_ne (by simp [hk])]
    obtain ⟨a, t, s, rfl⟩ := (renderChild_child hc).tag
    refine ⟨?_, by simp⟩
    intro k hkm
    rw [List.mem_singleton] at hkm; subst hkm
    exact ⟨f, by simp, by simp [hk], _, _, _, _, rfl, childName_loc _ _ _⟩
  | element hk hn _ =>
    have : ¬ v.isNone = true := fun h => hn (isNone_iff.1 h)
    simp only [renderField, hk, if_neg this, bind_eq_ok] at h
    obtain ⟨k, hc, h⟩ := h
    injection h with h; subst h
    rw [seg_of_ne (by simp [hk])]
    obtain ⟨a, t, s, rfl⟩ := (renderChild_child hc).tag
    refine ⟨?_, by simp⟩
    intro k hkm
    rw [List.mem_singleton] at hkm; subst hkm
    exact ⟨f, by simp, by simp [hk], _, _, _, _, rfl, childName_loc _ _ _⟩
  | list hk _ _ =>
    simp only [renderField, hk] at h
    rw [seg_of_ne (by simp [hk])]
    simp only [renderList, bind_eq_ok, raiseIf_eq_ok] at h
    obtain ⟨is, hi, _, hmin, _, hmax, ks, hks, h⟩ := h
    injection h with h; subst h
    refine ⟨?_, by simp⟩
    intro k hkm
    obtain ⟨v, _, hv⟩ := (mapE_ok_iff.1 hks).mem_right hkm
    obtain ⟨a, t, s, rfl⟩ := (renderChild_child hv).tag
    exact ⟨f, by simp, by simp [hk], _, _, _, _, rfl, childName_loc _ _ _⟩
  | noAttr hk _ _ _ _ =>
    simp only [renderField, hk] at h
    rw [seg_of_ne (by simp [hk])]
    rw [OutIn, renderAttr_children h]
    refine ⟨by simp, ?_⟩
    rcases renderAttr_ok h with ⟨_, _, h⟩ | ⟨h, _⟩ | ⟨h, _⟩
    · rw [h]; simp
    · cases h
    · exact absurd rfl h
  | attr hk _ hne _ _ _ _ =>
    simp only [renderField, hk] at h
    rw [seg_of_ne (by simp [hk])]
    rw [OutIn, renderAttr_children h]
    refine ⟨by simp, ?_⟩
    rcases renderAttr_ok h with ⟨h, _⟩ | ⟨h, _⟩ | ⟨_, _, s, t, _, _, h⟩
    · injection h with h; exact absurd h hne
    · cases h
    · rw [h]; intro a ha; rw [List.mem_singleton] at ha; subst ha
      exact ⟨f, by simp, hk, rfl⟩
  | @group _ c fs x hk ht hg hsv =>
    simp only [renderField, hk, renderRef, ht, renderType, bind_eq_ok] at h
    obtain ⟨⟨o', t⟩, ⟨o'', ho, he⟩, h⟩ := h
    injection he with he; injection he with h1 h2; subst h1
    simp only [Val.isGroupInst, hg, if_true] at h
    injection h with h; subst h
    have : seg T n f = flat T n c := by simp [seg, hk, ht]
    rw [this]
    exact ih c fs x ns q _ hsv ho

theorem fields_outIn {T : Table} {N n : Nat} {c : ClsId} {fs : List (Str × Val)} {x : Option Xml} {ns : Option Str}
    {q : Bool} {o : Out} (ih : ∀ c fs x ns q o, Survives T N (.complex c) (.inst c fs x) →
      renderCls T n c (.inst c fs x) ns q = .ok o → OutIn (flat T n c) o)
    (hs : Survives T N (.complex c) (.inst c fs x))
    (h : renderFields T (renderCls T n) fs ns q (T c).fields = .ok o) : OutIn (flat T (n + 1) c) o := by
  cases hs with
  | inst hch hh hu _ hsh hf =>
    obtain ⟨parts, hp, hk, ha⟩ := renderFields_parts h
    refine outIn_flatten hk ha ?_
    intro p hpm
    obtain ⟨f, hfm, v, hv, hr⟩ := hp.mem_right hpm
    obtain ⟨h1, h2⟩ := field_outIn (hf f v hfm hv) ih hr
    have hsub : ∀ h ∈ seg T n f, h ∈ flat T (n + 1) c := by
      intro h hh; rw [flat_succ, List.mem_flatMap]; exact ⟨f, hfm, hh⟩
    exact ⟨fun k hk => by obtain ⟨h, hm, hr⟩ := h1 k hk; exact ⟨h, hsub h hm, hr⟩,
      fun k hk => by obtain ⟨h, hm, hr⟩ := h2 k hk; exact ⟨h, hsub h hm, hr⟩⟩

theorem flat_outIn {T : Table} {N : Nat} : ∀ (n : Nat) c fs x ns q o, Survives T N (.complex c) (.inst c fs x) →
    renderCls T n c (.inst c fs x) ns q = .ok o → OutIn (flat T n c) o := by
  intro n
  induction n with
  | zero => intro c fs x ns q o _ h; cases h
  | succ n ih =>
    intro c fs x ns q o hs h
    have hh : (T c).header = false := by cases hs with | inst _ hh _ _ _ _ => exact hh
    rcases renderCls_fields hh h with ⟨h, _⟩ | ⟨c1, vals1, x1, he, h⟩
    · cases h
    injection he with h1 h2 h3; subst h1 h2 h3
    exact fields_outIn ih hs h

/-! ### What is read -/

theorem back_attr {x y : Xml} (h : Back x y) (q : QName) : y.attr q = x.attr q := by cases h <;> rfl

theorem back_claims {x y : Xml} (h : Back x y) (f : Field) : f.claims y = f.claims x := by cases h <;> rfl

theorem findSub_back {ks ks' : List Xml} (h : All2 Back ks ks') (hpi : ∀ k ∈ ks, k ≠ .pi) (f : Field) :
    ∃ l, findSub f ks' = .ok l ∧ All2 Back (ks.filter f.claims) l := by
  induction h with
  | nil => exact ⟨[], rfl, .nil⟩
  | @cons a b as bs hab _ ih =>
    obtain ⟨l, hl, hb⟩ := ih fun k hk => hpi k (by simp [hk])
    have hb' : b ≠ .pi := by
      intro e; subst e; cases hab; exact hpi .pi (by simp) rfl
    by_cases hc : f.claims a = true
    · have hc' : f.Claims b := claims_bool.1 (by rw [back_claims hab]; exact hc)
      obtain ⟨q, at', t, k, rfl, _⟩ := id hc'
      refine ⟨_, by rw [findSub_take hc', hl]; rfl, ?_⟩
      rw [List.filter_cons_of_pos hc]
      exact .cons hab hb
    · have hc' : ¬ f.Claims b := fun h => hc (by rw [← back_claims hab]; exact claims_bool.2 h)
      refine ⟨l, by rw [findSub_skip hc' hb', hl], ?_⟩
      rw [List.filter_cons_of_neg hc]
      exact hb

theorem claims_tag {h g : Field} {q : QName} {a t s} (hq : q.loc = g.writtenName) (hc : h.claims (.elem q a t s) = true) :
    g.writtenName = h.name ∨ h.tagname = some g.writtenName := by
  simp only [Field.claims, Bool.or_eq_true, decide_eq_true_eq, hq] at hc
  exact hc

/-- Children of other fields are not claimed. -/
theorem filter_other {L : List Field} {o : Out} {h : Field} (hk : h.kind ≠ .attribute) (ho : OutIn L o)
    (hL : ∀ g ∈ L, ¬ Clash h g) : o.kids.filter h.claims = [] := by
  rw [List.filter_eq_nil_iff]
  intro k hkm hc
  obtain ⟨g, hg, hgk, q, a, t, s, rfl, hq⟩ := ho.1 k hkm
  refine hL g hg (.inr ⟨hk, hgk, ?_⟩)
  rcases claims_tag hq hc with h | h
  · exact .inl h
  · exact .inr (.inl h)

theorem attrs_other {L : List Field} {o : Out} {h : Field} (hk : h.kind = .attribute) (ho : OutIn L o)
    (hL : ∀ g ∈ L, ¬ Clash h g) : ∀ a ∈ o.attrs, a.1 ≠ ⟨none, h.writtenName⟩ := by
  intro a ha e
  obtain ⟨g, hg, hgk, he⟩ := ho.2 a ha
  rw [he] at e
  injection e with _ e
  exact hL g hg (.inl ⟨hk, hgk, e.symm⟩)

theorem filter_parts_nil {h : Field} {parts : List Out} (hp : ∀ p ∈ parts, p.kids.filter h.claims = []) :
    (parts.map (·.kids)).flatten.filter h.claims = [] := by
  induction parts with
  | nil => rfl
  | cons p ps ih =>
    simp only [List.map_cons, List.flatten_cons, List.filter_append]
    rw [hp p (by simp), ih fun p hp' => hp p (by simp [hp'])]
    rfl

theorem attrGet_append (l l' : List (QName × Str)) (q : QName) : attrGet (l ++ l') q =
    match attrGet l q with | some v => some v | none => attrGet l' q := by
  induction l with
  | nil => rfl
  | cons x xs ih =>
    obtain ⟨k, w⟩ := x
    simp only [List.cons_append, attrGet]
    split
    · rfl
    · exact ih

theorem attrGet_none {l : List (QName × Str)} {q : QName} (h : ∀ a ∈ l, a.1 ≠ q) : attrGet l q = none := by
  cases hg : attrGet l q with
  | none => rfl
  | some v => exact absurd rfl (h _ (attrGet_mem hg))

theorem attrs_mid {s1 m s2 : List (QName × Str)} {q : QName} (h1 : ∀ a ∈ s1, a.1 ≠ q) (h2 : ∀ a ∈ s2, a.1 ≠ q) :
    attrGet (attrSetAll [] (s1 ++ m ++ s2)) q = attrGet (attrSetAll [] m) q := by
  rw [attrGet_setAll, attrGet_setAll]
  simp only [List.reverse_append, attrGet_append]
  rw [attrGet_none (l := s2.reverse) (by simpa using h2), attrGet_none (l := s1.reverse) (by simpa using h1)]
  cases attrGet m.reverse q <;> rfl

/-- The document element offers each field of the list what the output has for it. -/
structure Offers (L : List Field) (o : Out) (y : Xml) : Prop where
  attrs : ∀ h ∈ L, h.kind = .attribute → h.writtenName = h.name →
    y.attr ⟨none, h.name⟩ = attrGet (attrSetAll [] o.attrs) ⟨none, h.name⟩
  kids : ∀ h ∈ L, h.kind ≠ .attribute → ∃ l, findSub h y.kids = .ok l ∧ All2 Back (o.kids.filter h.claims) l
  nil : y.attr qNil = none
  elem : ∃ q a t k, y = .elem q a t k

theorem all2_split {α β : Type} {R : α → β → Prop} {as : List α} {bs : List β} (h : All2 R as bs) {a : α} (ha : a ∈ as) :
    ∃ as1 as2 bs1 b bs2, as = as1 ++ a :: as2 ∧ bs = bs1 ++ b :: bs2 ∧ R a b ∧ All2 R as1 bs1 ∧ All2 R as2 bs2 := by
  obtain ⟨as1, as2, rfl⟩ := List.append_of_mem ha
  obtain ⟨b1, b2, rfl, h1, h2⟩ := all2_append_left h
  cases h2 with
  | @cons _ b _ b2 hr ht => exact ⟨as1, as2, b1, b, b2, rfl, rfl, hr, h1, ht⟩

/-- Narrowing what a document offers to one field. -/
theorem offers_field {T : Table} {N n : Nat} {c : ClsId} {fs : List (Str × Val)} {ns : Option Str}
    {q : Bool} {o : Out} {y : Xml} (hn : NamesNodup (T c))
    (hu : Unambiguous T c)
    (hf : ∀ f v, f ∈ (T c).fields → Dict.get? fs f.name = some v → FieldSurvives T N f v)
    (h : renderFields T (renderCls T n) fs ns q (T c).fields = .ok o) (hy : Offers (flat T (n + 1) c) o y)
    (f : Field) (hfm : f ∈ (T c).fields) :
    ∃ v p, Dict.get? fs f.name = some v ∧ renderField T (renderCls T n) f v ns q = .ok p ∧ Offers (seg T n f) p y ∧
      OutIn (seg T n f) p := by
  obtain ⟨parts, hp, hk, ha⟩ := renderFields_parts h
  obtain ⟨pre, post, p1, p, p2, hsplit, rfl, ⟨v, hv, hr⟩, h1, h2⟩ := all2_split hp hfm
  have hout : ∀ g ∈ (T c).fields, ∀ v p, Dict.get? fs g.name = some v →
      renderField T (renderCls T n) g v ns q = .ok p → OutIn (seg T n g) p :=
    fun g hg v p hgv hgr => field_outIn (hf g v hg hgv) (fun c fs x ns q o hs h => flat_outIn n c fs x ns q o hs h) hgr
  have hnames := hn
  unfold NamesNodup at hnames
  rw [hsplit, List.map_append, List.map_cons, List.nodup_append] at hnames
  obtain ⟨_, hn2, hn3⟩ := hnames
  rw [List.nodup_cons] at hn2
  have hpre : ∀ g ∈ pre, g ∈ (T c).fields ∧ f.name ≠ g.name := fun g hg =>
    ⟨by rw [hsplit]; simp [hg], fun e => hn3 g.name (List.mem_map.2 ⟨g, hg, rfl⟩) f.name (by simp) e.symm⟩
  have hpost : ∀ g ∈ post, g ∈ (T c).fields ∧ f.name ≠ g.name := fun g hg =>
    ⟨by rw [hsplit]; simp [hg], fun e => hn2.1 (List.mem_map.2 ⟨g, hg, e.symm⟩)⟩
  have hoth : ∀ p' ∈ p1 ++ p2, ∃ g ∈ (T c).fields, f.name ≠ g.name ∧ OutIn (seg T n g) p' := by
    intro p' hp'
    rcases List.mem_append.1 hp' with hp' | hp'
    · obtain ⟨g, hg, w, hgv, hgr⟩ := h1.mem_right hp'
      exact ⟨g, (hpre g hg).1, (hpre g hg).2, hout g (hpre g hg).1 w p' hgv hgr⟩
    · obtain ⟨g, hg, w, hgv, hgr⟩ := h2.mem_right hp'
      exact ⟨g, (hpost g hg).1, (hpost g hg).2, hout g (hpost g hg).1 w p' hgv hgr⟩
  have hsub : ∀ h ∈ seg T n f, h ∈ flat T (n + 1) c := by
    intro h hh; rw [flat_succ, List.mem_flatMap]; exact ⟨f, hfm, hh⟩
  refine ⟨v, p, hv, hr, ⟨?_, ?_, hy.nil, hy.elem⟩, hout f hfm v p hv hr⟩
  · intro h hh hhk hht
    rw [hy.attrs h (hsub h hh) hhk hht, ha]
    simp only [List.map_append, List.map_cons, List.flatten_append, List.flatten_cons]
    rw [← List.append_assoc]
    have hno : ∀ ps : List Out, (∀ p' ∈ ps, p' ∈ p1 ++ p2) → ∀ a ∈ (ps.map (·.attrs)).flatten, a.1 ≠ ⟨none, h.name⟩ := by
      intro ps hps a ha
      rw [List.mem_flatten] at ha
      obtain ⟨l, hl, hal⟩ := ha
      obtain ⟨p', hp', rfl⟩ := List.mem_map.1 hl
      obtain ⟨g, hg, hne, hog⟩ := hoth p' (hps p' hp')
      rw [← hht]
      exact attrs_other hhk hog (fun g' hg' => seg_disjoint (hu (n + 1)) hfm hg hne h hh g' hg') a hal
    exact attrs_mid (hno p1 (fun p' h => List.mem_append_left _ h)) (hno p2 (fun p' h => List.mem_append_right _ h))
  · intro h hh hhk
    obtain ⟨l, hl, hb⟩ := hy.kids h (hsub h hh) hhk
    refine ⟨l, hl, ?_⟩
    have hno : ∀ ps : List Out, (∀ p' ∈ ps, p' ∈ p1 ++ p2) → (ps.map (·.kids)).flatten.filter h.claims = [] := by
      intro ps hps
      refine filter_parts_nil fun p' hp' => ?_
      obtain ⟨g, hg, hne, hog⟩ := hoth p' (hps p' hp')
      exact filter_other hhk hog (fun g' hg' => seg_disjoint (hu (n + 1)) hfm hg hne h hh g' hg')
    rw [hk] at hb
    simp only [List.map_append, List.map_cons, List.flatten_append, List.flatten_cons, List.filter_append] at hb
    rw [hno p1 (fun p' h => List.mem_append_left _ h), hno p2 (fun p' h => List.mem_append_right _ h)] at hb
    simpa using hb

/-- The output of an instance, wrapped in an element and read back, offers everything. -/
theorem offers_elem {L : List Field} {o : Out} {tag : QName} {y : Xml} (ho : OutIn L o)
    (hb : Back (.elem tag (attrSetAll [] o.attrs) none o.kids) y) : Offers L o y := by
  have hb' := hb
  cases hb with
  | elem ht hks =>
    refine ⟨fun h _ _ _ => rfl, ?_, ?_, ⟨_, _, _, _, rfl⟩⟩
    · intro h hh hk
      exact findSub_back hks (by
        intro k hkm e; subst e
        obtain ⟨_, _, _, _, _, _, _, h, _⟩ := ho.1 _ hkm
        cases h) h
    · show attrGet (attrSetAll [] o.attrs) qNil = none
      refine attrGet_setAll_none ?_
      intro a ha e
      obtain ⟨h, _, _, he⟩ := ho.2 a ha
      rw [he] at e
      cases e

theorem evaluate_ok {T : Table} {N : Nat} {t : FType} (h : ∀ c, t = .complex c → ∃ i, newInst T N c = .ok i) :
    evaluate (newInst T N) t = .ok () := by
  cases t with
  | complex c => obtain ⟨i, hi⟩ := h c rfl; simp [evaluate, hi, Except.map]
  | _ => rfl

theorem survives_evaluate {T : Table} {N : Nat} {t : FType} {v : Val} (h : Survives T N t v) :
    evaluate (newInst T N) t = .ok () := by
  cases h with
  | simple _ _ _ => rfl
  | inst _ _ _ hi _ _ => exact evaluate_ok fun c' h => by injection h with h; subst h; exact ⟨_, hi⟩

theorem survives_not_nil {T : Table} {N : Nat} {t : FType} {v : Val} (h : Survives T N t v) : v.isNil = false := by
  cases h <;> rfl

theorem textBack_eq {t t' : Option Str} (h : TextBack t t' []) : textAtom t' = textBack t := by
  unfold TextBack at h
  rw [if_pos rfl] at h
  subst h
  match t with
  | none => rfl
  | some [] => rfl
  | some (_ :: _) => rfl

theorem same_accept_inst {T : Table} {c : ClsId} {fs : List (Str × Val)} {x : Option Xml} {w : Val}
    (hself : c ∈ (T c).mro) (hw : w.Same (.inst c fs x)) : acceptCls T c w = .ok w := by
  obtain ⟨gs, y, rfl, _⟩ := erase_inst (p := true) hw.symm
  unfold acceptCls isSub
  split
  · rfl
  · simp [hself]

/-- The reading of an instance written at depth `n`. -/
def InstBack (T : Table) (N n : Nat) : Prop :=
  ∀ c fs x ns q o y, Survives T N (.complex c) (.inst c fs x) → renderCls T n c (.inst c fs x) ns q = .ok o →
    Offers (flat T n c) o y → ∃ w, parseCls T N n c y = .ok w ∧ w.Same (.inst c fs x)

/-- One child element, read back. -/
theorem type_back {T : Table} {N n : Nat} (hT : T.Sane) (ih : InstBack T N n) {t : FType} {v : Val} {ns : Option Str}
    {q : Bool} {o : Out} {txt : Option Str} {tag : QName} {y : Xml} (hs : Survives T N t v)
    (h : renderType (renderCls T n) t v ns q = .ok (o, txt)) (hb : Back (mkElem tag o txt) y) :
    y.attr qNil = none ∧ ∃ w w', parseType (parseCls T N n) t y = .ok w ∧ w.isNil = false ∧
      t.accept T w = .ok w' ∧ w'.Same v := by
  cases hs with
  | @simple s a tx b h1 h2 h3 =>
    simp only [renderType, bind_eq_ok] at h
    obtain ⟨tx', h1', tx'', h4, h⟩ := h
    have : tx' = tx := by
      have : s.xmlvalue a = .ok tx' := h1'
      rw [h1] at this; injection this with this; exact this.symm
    subst this
    have := optText_ok h4; subst this
    injection h with h
    injection h with ho ht
    subst ho; subst ht
    have hq : y.attr qNil = none := by
      rw [back_attr hb]
      show attrGet (attrSetAll [] s.extraAttrs) qNil = none
      refine attrGet_setAll_none ?_
      intro p hp e
      cases s <;> simp [SType.extraAttrs] at hp
      subst hp
      exact absurd e (by decide)
    refine ⟨hq, .atom b, .atom a, ?_, rfl, ?_, rfl⟩
    · cases hb with
      | elem ht hk =>
        simp only [parseType, textBack_eq ht, h2]
        rfl
    · show (s.accept b).map Val.atom = _
      rw [h3]; rfl
  | @inst c fs x i hc hh hu hi hsh hf =>
    have hs' : Survives T N (.complex c) (.inst c fs x) := .inst hc hh hu hi hsh hf
    simp only [renderType, bind_eq_ok] at h
    obtain ⟨o', ho, h⟩ := h
    injection h with h
    injection h with h1 h2
    subst h1; subst h2
    have hof := offers_elem (flat_outIn n c fs x ns q o' hs' ho) hb
    obtain ⟨w, hw, hsame⟩ := ih c fs x ns q o' y hs' ho hof
    refine ⟨hof.nil, w, w, hw, ?_, same_accept_inst (hT.self c) hsame, hsame⟩
    obtain ⟨gs, z, rfl, _⟩ := erase_inst (p := true) hsame.symm
    rfl

/-- One child element of a field with that element's name, read by the field. -/
theorem child_back {T : Table} {N n : Nat} (hT : T.Sane) (ih : InstBack T N n) {f : Field} {v : Val} {ns : Option Str}
    {q : Bool} {k y : Xml} (hs : ItemSurvives T N f v) (hr : renderChild (renderCls T n) f f.tag v ns q = .ok k)
    (hb : Back k y) : evaluate (newInst T N) f.type = .ok () ∧
      ((v = .nil ∧ f.nillable = true ∧ y.attr qNil = some py"true") ∨
      (y.attr qNil = none ∧ ∃ w w', parseType (parseCls T N n) f.type y = .ok w ∧
        f.acceptItem T w = .ok w' ∧ w'.Same v)) := by
  cases hs with
  | nil h1 h2 =>
    refine ⟨evaluate_ok h2, .inl ⟨rfl, h1, ?_⟩⟩
    simp only [renderChild, Val.isNil, if_true] at hr
    injection hr with hr; subst hr
    rw [back_attr hb]; rfl
  | val hs =>
    refine ⟨survives_evaluate hs, .inr ?_⟩
    simp only [renderChild, survives_not_nil hs, Bool.false_eq_true, if_false, bind_eq_ok] at hr
    obtain ⟨⟨o, t⟩, ho, hr⟩ := hr
    injection hr with hr; subst hr
    obtain ⟨h1, w, w', h2, h3, h4, h5⟩ := type_back hT ih hs ho hb
    exact ⟨h1, w, w', h2, by simp only [Field.acceptItem, h3, Bool.false_eq_true, if_false, h4], h5⟩

theorem elem_back {T : Table} {N n : Nat} (hT : T.Sane) (ih : InstBack T N n) {f : Field} {v : Val} {ns : Option Str}
    {q : Bool} {k y : Xml} (hk : f.kind ≠ .list) (hs : ItemSurvives T N f v)
    (hr : renderChild (renderCls T n) f f.tag v ns q = .ok k)
    (hb : Back k y) : ∃ w, elemVal T (newInst T N) (parseCls T N n) f y = .ok w ∧ w.Same v := by
  obtain ⟨he, ⟨rfl, hnil, hq⟩ | ⟨hq, w, w', hw, ha, hsame⟩⟩ := child_back hT ih hs hr hb
  · refine ⟨.nil, ?_, rfl⟩
    simp only [elemVal, he, hq, if_true, bind_ok, Field.accept, if_neg hk, Field.acceptItem, Val.isNil, hnil]
  · refine ⟨w', ?_, hsame⟩
    simp only [elemVal, he, hq, bind_ok, Field.accept, if_neg hk, hw, ha, reduceCtorEq, if_false]

theorem item_back {T : Table} {N n : Nat} (hT : T.Sane) (ih : InstBack T N n) {f : Field} {v : Val} {ns : Option Str}
    {q : Bool} {k y : Xml} {is : List Val} (hs : ItemSurvives T N f v)
    (hr : renderChild (renderCls T n) f f.tag v ns q = .ok k) (hb : Back k y)
    (hm : ∀ m, f.maxOccurs = some (.int m) → ((is.length : Int) + 1) ≤ m) :
    ∃ w, itemVal T (newInst T N) (parseCls T N n) f (.list true is) y = .ok (.list true (is ++ [w])) ∧ w.Same v := by
  have hmax : ifGiven f.maxOccurs (fun m => raiseIf (m.exceeded (is.length + 1)) Exn.valueError) = .ok () := by
    cases hf : f.maxOccurs with
    | none => rfl
    | some b =>
      cases b with
      | unbounded => rfl
      | int m =>
        have := hm m hf
        have hx : (Bound.int m).exceeded (is.length + 1) = false := by
          simp only [Bound.exceeded, decide_eq_false_iff_not]; omega
        simp only [ifGiven, hx, raiseIf]
        rfl
  obtain ⟨he, ⟨rfl, hnil, hq⟩ | ⟨hq, w, w', hw, ha, hsame⟩⟩ := child_back hT ih hs hr hb
  · refine ⟨.nil, ?_, rfl⟩
    simp only [itemVal, he, hq, bind_ok, typedAppend, Field.acceptItem, Val.isNil, hnil, hmax, if_true]
    rfl
  · refine ⟨w', ?_, hsame⟩
    simp only [itemVal, he, hq, bind_ok, typedAppend, hw, ha, hmax, ne_eq, not_true, false_and, if_false]

theorem items_back {T : Table} {N n : Nat} (hT : T.Sane) (ih : InstBack T N n) {f : Field} (hk : f.kind = .list)
    {ns : Option Str} {q : Bool} {vs : List Val} {ks ys : List Xml}
    (hr : All2 (fun v k => renderChild (renderCls T n) f f.tag v ns q = .ok k) vs ks) (hb : All2 Back ks ys) :
    ∀ (is : List Val), (∀ v ∈ vs, ItemSurvives T N f v) →
    (∀ m, f.maxOccurs = some (.int m) → ((is.length + vs.length : Nat) : Int) ≤ m) →
    ∃ ws, foldE (oneVal T (newInst T N) (parseCls T N n) f) (.list true is) ys = .ok (.list true (is ++ ws)) ∧
      ws.map (Val.eraseWith true) = vs.map (Val.eraseWith true) := by
  induction hr generalizing ys with
  | nil => intro is _ _; cases hb; exact ⟨[], by simp [foldE], rfl⟩
  | @cons v k vs ks hr1 _ ih2 =>
    intro is hs hm
    cases hb with
    | cons hb1 hb2 =>
      obtain ⟨w, hw, hsame⟩ := item_back (is := is) hT ih (hs v (by simp)) hr1 hb1 (fun m h => by
        have := hm m h; simp only [List.length_cons] at this; omega)
      obtain ⟨ws, hws, hsames⟩ := ih2 hb2 (is ++ [w]) (fun v hv => hs v (by simp [hv])) (fun m h => by
        have := hm m h; simp only [List.length_cons, List.length_append, List.length_nil] at this ⊢; omega)
      refine ⟨w :: ws, ?_, ?_⟩
      · simp only [foldE, oneVal, if_pos hk, hw, bind_ok]
        rw [hws]; simp
      · simp only [List.map_cons, hsames]; rw [hsame]

theorem filter_all {f : Field} {ks : List Xml} (h : ∀ k ∈ ks, ∃ a t s q, k = .elem q a t s ∧ q.loc = f.writtenName) :
    ks.filter f.claims = ks := by
  rw [List.filter_eq_self]
  intro k hk
  obtain ⟨a, t, s, q, rfl, hq⟩ := h k hk
  rw [claims_bool, Field.Claims]
  refine ⟨q, a, t, s, rfl, ?_⟩
  rw [hq]
  exact tag_claimed f

/-- One field, written and read back. -/
theorem field_back {T : Table} {N n : Nat} (hT : T.Sane) (ih : InstBack T N n) {f : Field} {v e : Val} {ns : Option Str}
    {q : Bool} {p : Out} {y : Xml} (hs : FieldSurvives T N f v)
    (hr : renderField T (renderCls T n) f v ns q = .ok p) (hof : Offers (seg T n f) p y)
    (he : f.kind = .element ∨ f.kind = .list → EmptyValue T f e) :
    ∃ w, fieldVal T (newInst T N) (parseCls T N n) f e y = .ok w ∧ w.Same v := by
  have elem : ∀ v, f.kind = .element → v ≠ Val.none → ItemSurvives T N f v →
      renderField T (renderCls T n) f v ns q = .ok p →
      ∃ w, fieldVal T (newInst T N) (parseCls T N n) f e y = .ok w ∧ w.Same v := by
    intro v hk hn hs hr
    have : ¬ v.isNone = true := fun h => hn (isNone_iff.1 h)
    simp only [renderField, hk, if_neg this, bind_eq_ok] at hr
    obtain ⟨k, hc, hr⟩ := hr
    injection hr with hr; subst hr
    obtain ⟨l, hl, hb⟩ := hof.kids f (by rw [seg_of_ne (by simp [hk])]; simp) (by simp [hk])
    obtain ⟨a, t, s, rfl⟩ := (renderChild_child hc).tag
    rw [filter_all (by intro k hk; rw [List.mem_singleton] at hk; subst hk; exact ⟨_, _, _, _, rfl, childName_loc _ _ _⟩)] at hb
    cases hb with
    | cons hb1 hb2 =>
      cases hb2
      obtain ⟨w, hw, hsame⟩ := elem_back hT ih (by simp [hk]) hs hc hb1
      exact ⟨w, by simp only [fieldVal, hk, hl, bind_ok, foldE, oneVal, hw, reduceCtorEq, if_false], hsame⟩
  cases hs with
  | absent hk hd =>
    simp only [renderField, hk, Val.isNone, if_true] at hr
    injection hr with hr; subst hr
    obtain ⟨l, hl, hb⟩ := hof.kids f (by rw [seg_of_ne (by simp [hk])]; simp) (by simp [hk])
    cases hb
    have := he (.inl hk)
    rw [EmptyValue, if_neg (by simp [hk]), hd] at this
    injection this with this; subst this
    exact ⟨Val.none, by simp only [fieldVal, hk, hl, bind_ok, foldE], rfl⟩
  | nil hk hn hi => exact elem _ hk (by simp) (.nil hn hi) hr
  | element hk hn hs => exact elem _ hk hn (.val hs) hr
  | @list _ t is hk hm hs =>
    simp only [renderField, hk, renderList, bind_eq_ok, raiseIf_eq_ok] at hr
    obtain ⟨is', hi, _, hmin, _, hmax, ks, hks, hr⟩ := hr
    injection hr with hr; subst hr
    injection hi with hi; subst hi
    obtain ⟨l, hl, hb⟩ := hof.kids f (by rw [seg_of_ne (by simp [hk])]; simp) (by simp [hk])
    rw [mapE_ok_iff] at hks
    rw [filter_all (by
      intro k hk
      obtain ⟨v, _, hv⟩ := hks.mem_right hk
      obtain ⟨a, t, s, rfl⟩ := (renderChild_child hv).tag
      exact ⟨_, _, _, _, rfl, childName_loc _ _ _⟩)] at hb
    have := he (.inr hk)
    rw [EmptyValue, if_pos hk] at this
    subst this
    obtain ⟨ws, hw, hsame⟩ := items_back hT ih hk hks hb [] hs (by simpa using hm)
    refine ⟨_, by simp only [fieldVal, hk, hl, bind_ok, hw]; rfl, ?_⟩
    simp [Val.Same, Val.eraseWith, eraseList_map, hsame]
  | @noAttr _ s b hk ht hty hp ha =>
    have hno : y.attr ⟨none, f.name⟩ = none := by
      rw [hof.attrs f (by rw [seg_of_ne (by simp [hk])]; simp) hk ht]
      simp only [renderField, hk] at hr
      rcases renderAttr_ok hr with ⟨_, _, h⟩ | ⟨h, _⟩ | ⟨h, _⟩
      · rw [h]; rfl
      · cases h
      · exact absurd rfl h
    refine ⟨Val.none, ?_, rfl⟩
    have hv : attrValue f none = .ok b := by simp only [attrValue, hty]; exact hp
    simp only [fieldVal, hk, attrVal, hty, evaluate, bind_ok, hno, hv, Field.accept, Field.acceptItem,
      Val.isNil, FType.accept, Val.toAtom, ha]
    rfl
  | @attr _ s a txt b hk ht hne hty hx hp ha =>
    have hyes : y.attr ⟨none, f.name⟩ = some txt := by
      rw [hof.attrs f (by rw [seg_of_ne (by simp [hk])]; simp) hk ht]
      simp only [renderField, hk, renderAttr, Val.isNil, hty, Val.toAtom, hx] at hr
      have : ¬ (Val.atom a).isNone = true := fun h => hne (by have := isNone_iff.1 h; injection this)
      simp only [if_neg this, Bool.false_eq_true, if_false, bind_eq_ok] at hr
      obtain ⟨t1, h1, t2, h2, hr⟩ := hr
      injection h1 with h1; subst h1
      have := xmlText_ok h2; subst this
      injection hr with hr; subst hr
      rw [← ht]
      simp [attrSetAll, attrSet, attrGet, tag_eq]
    refine ⟨.atom a, ?_, rfl⟩
    have hv : attrValue f (some txt) = .ok b := by simp only [attrValue, hty]; exact hp
    simp only [fieldVal, hk, attrVal, hty, evaluate, bind_ok, hyes, hv, Field.accept, Field.acceptItem,
      Val.isNil, FType.accept, Val.toAtom, ha]
    rfl
  | @group _ c fs x hk hty hg hs =>
    simp only [renderField, hk, renderRef, hty, renderType, bind_eq_ok] at hr
    obtain ⟨⟨o, t⟩, ⟨o', ho, hr1⟩, hr⟩ := hr
    injection hr1 with hr1; injection hr1 with e1 e2; subst e1; subst e2
    simp only [Val.isGroupInst, hg, if_true] at hr
    injection hr with hr; subst hr
    have hseg : seg T n f = flat T n c := by unfold seg; rw [hk, hty]
    rw [hseg] at hof
    obtain ⟨w, hw, hsame⟩ := ih c fs x ns q o' y hs ho hof
    have hev := survives_evaluate hs
    have hacc := same_accept_inst (hT.self c) hsame
    have hnil : w.isNil = false := by
      obtain ⟨gs, z, rfl, _⟩ := erase_inst (p := true) hsame.symm
      rfl
    refine ⟨w, ?_, hsame⟩
    simp only [fieldVal, hk, elemVal, hty, hev, hof.nil, bind_ok, parseType, hw, Field.accept, Field.acceptItem, hnil,
      FType.accept, hacc, reduceCtorEq, if_false, Bool.false_eq_true]

theorem choose_dict {L : List Field} {P : Field → Val → Prop} (h : ∀ f ∈ L, ∃ w, P f w) :
    ∃ d : List (Str × Val), All2 (fun f p => p.1 = f.name ∧ P f p.2) L d := by
  induction L with
  | nil => exact ⟨[], .nil⟩
  | cons f L ih =>
    obtain ⟨w, hw⟩ := h f (by simp)
    obtain ⟨d, hd⟩ := ih fun g hg => h g (by simp [hg])
    exact ⟨(f.name, w) :: d, .cons ⟨rfl, hw⟩ hd⟩

theorem fields_back {T : Table} (hT : T.Sane) {N n : Nat} (ih : InstBack T N n) {c : ClsId} {fs : List (Str × Val)}
    {x : Option Xml} {ns : Option Str} {q : Bool} {o : Out} {y : Xml} (hs : Survives T N (.complex c) (.inst c fs x))
    (h : renderFields T (renderCls T n) fs ns q (T c).fields = .ok o) (hof : Offers (flat T (n + 1) c) o y) :
    ∃ w, parseCls T N (n + 1) c y = .ok w ∧ w.Same (.inst c fs x) := by
  have hn := hT.names c
  cases id hs with
  | @inst _ _ _ i hc hh hu hi hsh hf =>
    obtain ⟨M, es, hM, rfl, hes, hall⟩ := newInst_ok hn hi
    have hfield : ∀ f ∈ (T c).fields, ∃ w, ∃ e v, Dict.get? es f.name = some e ∧ Dict.get? fs f.name = some v ∧
        fieldVal T (newInst T N) (parseCls T N n) f e y = .ok w ∧ w.Same v := by
      intro f hfm
      obtain ⟨v, p, hv, hr, hofp, _⟩ := offers_field hn hu hf h hof f hfm
      obtain ⟨e, he⟩ := hes.get hfm
      obtain ⟨w, hw, hsame⟩ := field_back hT ih (hf f v hfm hv) hr hofp (fun hk => by
        obtain ⟨e', he', hemp⟩ := newInst_empty hn hi hfm (by rcases hk with hk | hk <;> simp [hk])
        rw [he] at he'; injection he' with he'; subst he'; exact hemp)
      exact ⟨w, e, v, he, hv, hw, hsame⟩
    obtain ⟨d, hd⟩ := choose_dict hfield
    obtain ⟨hd1, hd2⟩ := zip_get (P := fun f w => ∃ e v, Dict.get? es f.name = some e ∧ Dict.get? fs f.name = some v ∧
        fieldVal T (newInst T N) (parseCls T N n) f e y = .ok w ∧ w.Same v) hd hn
    refine ⟨.inst c d (some y), (parseCls_ok_iff hn hc).2 ⟨es, d, hi, rfl, hd1, ?_⟩, ?_⟩
    · intro f hfm
      obtain ⟨w, hw, e, v, he, _, hval, _⟩ := hd2 f hfm
      exact ⟨e, w, he, hval, hw⟩
    · show Val.eraseWith true _ = Val.eraseWith true _
      simp only [Val.eraseWith, Val.inst.injEq, true_and, and_true]
      have hk1 : (eraseFields true d).map (·.1) = (T c).fields.map (·.name) := by
        rw [eraseFields_map, List.map_map, ← hd1]; rfl
      have hk2 : (eraseFields true fs).map (·.1) = (T c).fields.map (·.name) := by
        rw [eraseFields_map, List.map_map, ← hsh]; rfl
      refine dict_ext (by rw [hk1, hk2]) (by rw [hk1]; exact hn) ?_
      intro k
      rw [eraseFields_get, eraseFields_get]
      by_cases hex : ∃ f ∈ (T c).fields, f.name = k
      · obtain ⟨f, hfm, rfl⟩ := hex
        obtain ⟨w, hw, e, v, _, hv, _, hsame⟩ := hd2 f hfm
        rw [hw, hv]
        exact congrArg some hsame
      · have hx : ∀ d : List (Str × Val), d.map (·.1) = (T c).fields.map (·.name) → Dict.get? d k = none := by
          intro d hd
          rw [get_none_iff, hd]
          simp only [List.mem_map]
          exact hex
        rw [hx d hd1, hx fs hsh]

theorem inst_back {T : Table} (hT : T.Sane) (N : Nat) : ∀ n, InstBack T N n := by
  intro n
  induction n with
  | zero => intro c fs x ns q o y _ h; cases h
  | succ n ih =>
    intro c fs x ns q o y hs h hof
    have hh : (T c).header = false := by cases hs with | inst _ hh _ _ _ _ => exact hh
    simp only [renderCls, hh, Bool.false_eq_true, false_and, if_false] at h
    exact fields_back hT ih hs h hof

/-- **C25.** An instance whose simple values survive being written as text, of a class with unambiguous names,
survives being written to a document, serialised (with or without pretty printing), read back and parsed with the same
class: the result has the same values in all fields, recursively. -/
theorem C25_roundtrip (T : Table) (hT : T.Sane) (N n : Nat) (c : ClsId) (fs : List (Str × Val)) (x : Option Xml)
    (hs : Survives T N (.complex c) (.inst c fs x)) (tagname : Str) (ns : Option Str) (q : Bool) (doc doc' : Xml)
    (hw : toXml T n (.inst c fs x) tagname ns q = .ok doc) (hb : Back doc doc') :
    ∃ v, parseCls T N n c doc' = .ok v ∧ v.Same (.inst c fs x) := by
  simp only [toXml, bind_eq_ok] at hw
  obtain ⟨o, ho, hw⟩ := hw
  injection hw with hw; subst hw
  exact inst_back hT N n c fs x ns q o doc' hs ho (offers_elem (flat_outIn n c fs x ns q o hs ho) hb)

/-! ### Which simple values survive -/

/-- **C25 (simple values).** Every non-empty string its type accepts unchanged survives... -/
theorem C25_strings (T : Table) (N : Nat) (f : StrFacets) (s : Str) (hs : s ≠ [])
    (h : (SType.string f).accept (.str s) = .ok (.str s)) : Survives T N (.simple (.string f)) (.atom (.str s)) := by
  cases s with
  | nil => exact absurd rfl hs
  | cons c cs => exact .simple (txt := some (c :: cs)) (b := .str (c :: cs)) rfl rfl h

/-- ... an empty string does not: it reads back as None. -/
theorem C25_empty_string (f : StrFacets) (b w : Atom) (h1 : (SType.string f).pythonvalue (textBack (some [])) = .ok b)
    (h2 : (SType.string f).accept b = .ok w) : w = .none := by
  injection h1 with h1; subst h1
  injection h2 with h2; exact h2.symm

/-- None survives in strings: it is written as no text. -/
theorem C25_none_string (T : Table) (N : Nat) (f : StrFacets) : Survives T N (.simple (.string f)) Val.none :=
  .simple (txt := none) (b := .none) rfl rfl rfl

/-- Both booleans survive. -/
theorem C25_booleans (T : Table) (N : Nat) (b : Bool) : Survives T N (.simple .boolean) (.atom (.bool b)) := by
  obtain ⟨h1, h2, h3⟩ := C09_boolean_roundtrip b
  refine .simple h2 ?_ h1
  cases b <;> exact h3

/-- Every int an integer type accepts survives. -/
theorem C25_integers (T : Table) (N : Nat) (k : IntKind) (a : Spec.IntArgs) (v : Int)
    (h : (SType.integer (k.facets a.facets)).accept (.int v) = .ok (.int v)) :
    Survives T N (.simple (.integer (k.facets a.facets))) (.atom (.int v)) := by
  obtain ⟨sign, digits, h1, h2, h3, _, _, h4⟩ := C02_integer_roundtrip k a v h
  refine .simple h1 ?_ h
  cases hd : sign ++ digits with
  | nil => exact absurd (List.append_eq_nil_iff.1 hd).2 h3
  | cons c cs => rw [hd] at h4; exact h4

/-- Every real date since the year 1000, with an offset of whole minutes or none, survives. -/
theorem C25_dates (T : Table) (N : Nat) (y m d : Nat) (o : Option Int) (hr : Spec.RealDate y m d) (hy : 1000 ≤ y)
    (ho : ∀ n, o = some n → -1440 < n ∧ n < 1440) : Survives T N (.simple .date) (.atom (dateValue y m d o)) := by
  obtain ⟨h1, s, h2, h3⟩ := C10_date_roundtrip y m d o hr hy ho
  refine .simple h2 ?_ h1
  cases s with
  | nil => cases h3
  | cons c cs => exact h3

/-- Every float a Decimal accepts survives, floats being their shortest texts. -/
theorem C25_floats (T : Table) (N : Nat) (fa : NumFacets) (f : Flt) (hf : ∀ d, f = .fin d → d.Canonical)
    (h : (SType.decimal fa).accept (.float f) = .ok (.float f)) :
    Survives T N (.simple (.decimal fa)) (.atom (.float f)) := by
  obtain ⟨h1, h2⟩ := C16_float_roundtrip fa f hf h
  refine .simple h1 ?_ h
  cases hd : f.repr with
  | nil => rw [hd] at h2; cases h2
  | cons c cs => rw [hd] at h2; exact h2

/-! ### The example person survives -/

instance (f g : Field) : Decidable (Clash f g) := by unfold Clash; infer_instance

theorem ex_unambiguous (c : ClsId) (hc : c = 0 ∨ c = 1 ∨ c = 2) : Unambiguous Ex.table c := by
  intro n
  match n with
  | 0 => exact .nil
  | 1 => rcases hc with rfl | rfl | rfl <;> decide
  | n + 2 =>
    rcases hc with rfl | rfl | rfl
    · show ((flat Ex.table 2 0).Pairwise fun f g => ¬ Clash f g); decide
    · show ((flat Ex.table 1 1).Pairwise fun f g => ¬ Clash f g); decide
    · show ((flat Ex.table 1 2).Pairwise fun f g => ¬ Clash f g); decide

theorem ex_survives : Survives Ex.table 5 (.complex 0) exPerson := by
  refine .inst rfl rfl (ex_unambiguous 0 (by simp)) (i := _) rfl rfl ?_
  intro f v hf hv
  simp only [Ex.table, Ex.person, List.mem_cons, List.not_mem_nil, or_false] at hf
  rcases hf with rfl | rfl | rfl | rfl | rfl | rfl
  · injection hv with hv; subst hv
    exact .attr (s := .integer {}) (txt := py"7") (b := .int 7) rfl rfl (by simp) rfl rfl rfl rfl
  · injection hv with hv; subst hv
    exact .element rfl (by simp) (C25_strings _ _ _ _ (by decide) rfl)
  · injection hv with hv; subst hv
    exact .nil rfl rfl (by intro c h; cases h)
  · injection hv with hv; subst hv
    refine .list rfl (by intro m h; injection h with h; injection h with h; subst h; decide) ?_
    intro v hv
    simp only [List.mem_cons, List.not_mem_nil, or_false] at hv
    rcases hv with rfl | rfl
    · exact .val (C25_strings _ _ _ _ (by decide) rfl)
    · exact .val (C25_strings _ _ _ _ (by decide) rfl)
  · injection hv with hv; subst hv
    exact .absent rfl rfl
  · injection hv with hv; subst hv
    refine .group rfl rfl rfl (.inst rfl rfl (ex_unambiguous 2 (by simp)) (i := _) rfl rfl ?_)
    intro f v hf hv
    simp only [Ex.table, Ex.contact, List.mem_cons, List.not_mem_nil, or_false] at hf
    subst hf
    injection hv with hv; subst hv
    exact .element rfl (by simp) (C25_strings _ _ _ _ (by decide) rfl)

example : ∃ doc, toXml Ex.table 5 exPerson py"person" none true = .ok doc ∧
    ∀ doc', Back doc doc' → ∃ v, parseCls Ex.table 5 5 0 doc' = .ok v ∧ v.Same exPerson :=
  ⟨_, rfl, fun doc' hb => C25_roundtrip _ Ex.table_sane 5 5 0 _ _ ex_survives _ _ _ _ doc' rfl hb⟩

/-! ### C30 -/

/-- The class has no groups. -/
def NoGroups (c : Cls) : Prop := ∀ f ∈ c.fields, f.kind ≠ .ref ∧ f.kind ≠ .content

theorem renderField_attrs {T : Table} {rc : RenderCls} {f : Field} {v : Val} {ns : Option Str} {q : Bool} {o : Out}
    (hk : f.kind ≠ .ref ∧ f.kind ≠ .content) (h : renderField T rc f v ns q = .ok o) :
    ∀ a ∈ o.attrs, f.kind = .attribute ∧ a.1 = ⟨none, f.writtenName⟩ := by
  unfold renderField at h
  cases hkk : f.kind with
  | ref => exact absurd hkk hk.1
  | content => exact absurd hkk hk.2
  | element =>
    simp only [hkk] at h
    split at h
    · injection h with h; subst h; simp
    · simp only [bind_eq_ok] at h
      obtain ⟨k, _, h⟩ := h
      injection h with h; subst h; simp
  | list =>
    simp only [hkk, renderList, bind_eq_ok] at h
    obtain ⟨_, _, _, _, _, _, _, _, h⟩ := h
    injection h with h; subst h; simp
  | classNamed =>
    simp only [hkk, renderNamed] at h
    split at h
    · injection h with h; subst h; simp
    · split at h
      · split at h
        · injection h with h; subst h; simp
        · split at h
          · simp only [bind_eq_ok] at h
            obtain ⟨_, _, _, _, h⟩ := h
            injection h with h; subst h; simp
          · cases h
        · cases h
      · cases h
    · cases h
  | «attribute» =>
    simp only [hkk] at h
    intro a ha
    refine ⟨rfl, ?_⟩
    rcases renderAttr_ok h with ⟨_, _, h⟩ | ⟨_, _, h⟩ | ⟨_, _, s, t, _, _, h⟩ <;> rw [h] at ha <;> simp at ha <;> rw [ha]

/-- Attributes of the output by name. -/
theorem render_attr {T : Table} {n : Nat} {c : ClsId} {vals : List (Str × Val)} {x : Option Xml} {ns : Option Str}
    {q : Bool} {o : Out} (hn : NamesNodup (T c)) (hh : (T c).header = false) (hg : NoGroups (T c))
    (h : renderCls T (n + 1) c (.inst c vals x) ns q = .ok o) (nm : Str) :
    ((∀ g ∈ (T c).fields, g.kind = .attribute → g.writtenName ≠ nm) → attrGet (attrSetAll [] o.attrs) ⟨none, nm⟩ = none) ∧
    (∀ f ∈ (T c).fields, f.kind = .attribute → f.writtenName = nm →
      (∀ g ∈ (T c).fields, g.kind = .attribute → g.name ≠ f.name → g.writtenName ≠ nm) →
      ∃ v p, Dict.get? vals f.name = some v ∧ renderAttr f v = .ok p ∧
        attrGet (attrSetAll [] o.attrs) ⟨none, nm⟩ = attrGet (attrSetAll [] p.attrs) ⟨none, nm⟩) := by
  simp only [renderCls, hh, Bool.false_eq_true, false_and, if_false] at h
  obtain ⟨parts, hp, -, ha⟩ := renderFields_parts h
  constructor
  · intro hno
    refine attrGet_setAll_none ?_
    intro a haa e
    rw [ha, List.mem_flatten] at haa
    obtain ⟨l, hl, hal⟩ := haa
    obtain ⟨p, hpm, rfl⟩ := List.mem_map.1 hl
    obtain ⟨g, hgm, w, hgv, hgr⟩ := hp.mem_right hpm
    obtain ⟨hk, hkey⟩ := renderField_attrs (hg g hgm) hgr a hal
    rw [hkey] at e; injection e with _ e
    exact hno g hgm hk e
  · intro f hf hk ht hno
    obtain ⟨pre, post, p1, p, p2, hsplit, rfl, ⟨v, hv, hr⟩, h1, h2⟩ := all2_split hp hf
    have hr' : renderAttr f v = .ok p := by simpa only [renderField, hk] using hr
    refine ⟨v, p, hv, hr', ?_⟩
    rw [ha]
    simp only [List.map_append, List.map_cons, List.flatten_append, List.flatten_cons]
    rw [← List.append_assoc]
    have hnames := hn
    unfold NamesNodup at hnames
    rw [hsplit, List.map_append, List.map_cons, List.nodup_append] at hnames
    obtain ⟨_, hn2, hn3⟩ := hnames
    rw [List.nodup_cons] at hn2
    refine attrs_mid ?_ ?_
    · intro a haa e
      rw [List.mem_flatten] at haa
      obtain ⟨l, hl, hal⟩ := haa
      obtain ⟨p', hpm, rfl⟩ := List.mem_map.1 hl
      obtain ⟨g, hgm, w, hgv, hgr⟩ := h1.mem_right hpm
      have hgf : g ∈ (T c).fields := by rw [hsplit]; simp [hgm]
      obtain ⟨hk, hkey⟩ := renderField_attrs (hg g hgf) hgr a hal
      rw [hkey] at e; injection e with _ e
      exact hno g hgf hk (fun e => hn3 g.name (List.mem_map.2 ⟨g, hgm, rfl⟩) f.name (by simp) e) e
    · intro a haa e
      rw [List.mem_flatten] at haa
      obtain ⟨l, hl, hal⟩ := haa
      obtain ⟨p', hpm, rfl⟩ := List.mem_map.1 hl
      obtain ⟨g, hgm, w, hgv, hgr⟩ := h2.mem_right hpm
      have hgf : g ∈ (T c).fields := by rw [hsplit]; simp [hgm]
      obtain ⟨hk, hkey⟩ := renderField_attrs (hg g hgf) hgr a hal
      rw [hkey] at e; injection e with _ e
      exact hno g hgf hk (fun e => hn2.1 (List.mem_map.2 ⟨g, hgm, e⟩)) e

/-- **C30.** An attribute with a tag name other than its field name does not survive: whatever its value was, and
whatever the other fields hold, after writing and reading back it has the default as converted from text (unless
another attribute happens to be written under its field name)... -/
theorem C30_tagname_attribute_lost (T : Table) (hT : T.Wf) (N n : Nat) (c : ClsId) (vals : List (Str × Val))
    (x : Option Xml) (hh : (T c).header = false) (hc : (T c).choice = false) (hg : NoGroups (T c)) (f : Field)
    (hf : f ∈ (T c).fields) (hk : f.kind = .attribute)
    (hno : ∀ g ∈ (T c).fields, g.kind = .attribute → g.writtenName ≠ f.name) (tagname : Str) (ns : Option Str) (q : Bool)
    (doc doc' : Xml) (hw : toXml T (n + 1) (.inst c vals x) tagname ns q = .ok doc) (hb : Back doc doc') (v : Val)
    (hv : parseCls T N (n + 1) c doc' = .ok v) :
    ∃ s b w, f.type = .simple s ∧ s.pythonvalue f.default.toAtom = .ok b ∧ s.accept b = .ok w ∧
      v.attr f.name = some (.atom w) := by
  simp only [toXml, bind_eq_ok] at hw
  obtain ⟨o, ho, hw⟩ := hw
  injection hw with hw; subst hw
  cases hb with
  | elem ht hks =>
    obtain ⟨s, b, w, h1, h2, h3, h4⟩ := C32_attribute T hT N n c hc _ _ _ _ f hf hk v hv
    rw [(render_attr (hT c) hh hg ho f.name).1 hno] at h2
    exact ⟨s, b, w, h1, h2, h3, h4⟩

/-- ... while an attribute written under its own name survives whenever its text does. -/
theorem C30_other_attributes_kept (T : Table) (hT : T.Wf) (N n : Nat) (c : ClsId) (vals : List (Str × Val))
    (x : Option Xml) (hh : (T c).header = false) (hc : (T c).choice = false) (hg : NoGroups (T c)) (f : Field)
    (hf : f ∈ (T c).fields) (hk : f.kind = .attribute) (htag : f.writtenName = f.name)
    (hno : ∀ g ∈ (T c).fields, g.kind = .attribute → g.name ≠ f.name → g.writtenName ≠ f.name) (s : SType)
    (hs : f.type = .simple s) (a b : Atom) (txt : Str) (hval : Dict.get? vals f.name = some (.atom a))
    (hna : a ≠ .none) (h1 : s.xmlvalue a = .ok (some txt)) (h2 : s.pythonvalue (.str txt) = .ok b)
    (h3 : s.accept b = .ok a) (tagname : Str) (ns : Option Str) (q : Bool)
    (doc doc' : Xml) (hw : toXml T (n + 1) (.inst c vals x) tagname ns q = .ok doc) (hb : Back doc doc') (v : Val)
    (hv : parseCls T N (n + 1) c doc' = .ok v) : v.attr f.name = some (.atom a) := by
  simp only [toXml, bind_eq_ok] at hw
  obtain ⟨o, ho, hw⟩ := hw
  injection hw with hw; subst hw
  cases hb with
  | elem ht hks =>
    obtain ⟨s', b', w, g1, g2, g3, g4⟩ := C32_attribute T hT N n c hc _ _ _ _ f hf hk v hv
    rw [hs] at g1; injection g1 with g1; subst g1
    obtain ⟨v', p, hv', hp, hget⟩ := (render_attr (hT c) hh hg ho f.name).2 f hf hk htag hno
    rw [hval] at hv'; injection hv' with hv'; subst hv'
    have : ¬ (Val.atom a).isNone = true := fun h => hna (by have := isNone_iff.1 h; injection this)
    simp only [renderAttr, hs, Val.isNil, Val.toAtom, h1, if_neg this, Bool.false_eq_true, if_false, bind_eq_ok] at hp
    obtain ⟨t1, e1, t2, e2, hp⟩ := hp
    injection e1 with e1; subst e1
    have := xmlText_ok e2; subst this
    injection hp with hp; subst hp
    rw [hget] at g2
    have : attrGet (attrSetAll [] [((⟨none, f.tag⟩ : QName), t2)]) ⟨none, f.name⟩ = some t2 := by
      rw [tag_eq, htag]; simp [attrSetAll, attrSet, attrGet]
    rw [this] at g2
    rw [h2] at g2; injection g2 with g2; subst g2
    rw [h3] at g3; injection g3 with g3; subst g3
    exact g4

/-- `class A(xsd.ComplexType): a = xsd.Attribute(xsd.Int, tagname='b')`: 5 is written as `b="5"` and read back as
None. -/
def exTagTable : Table := fun c => { name := py"A", mro := [c], fields := [
  { name := py"a", kind := .attribute, type := .simple (.integer {}), tagname := some py"b" }] }

example : toXml exTagTable 2 (.inst 0 [(py"a", .atom (.int 5))] none) py"x" none true =
    .ok (.elem ⟨none, py"x"⟩ [(⟨none, py"b"⟩, py"5")] none []) ∧
  ∃ v, parseCls exTagTable 2 2 0 (.elem ⟨none, py"x"⟩ [(⟨none, py"b"⟩, py"5")] none []) = .ok v ∧
    v.attr py"a" = some Val.none := ⟨rfl, _, rfl, rfl⟩

end Soapfish
