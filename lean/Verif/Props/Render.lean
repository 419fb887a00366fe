import Verif.Props.Parse
import Verif.Spec.Render
import Verif.Examples
/-
Rendering instances: C21, C22, C23, C24, C26.
-/
namespace Soapfish

/-! ### Rendering, field by field -/

theorem tag_eq (f : Field) : f.tag = f.writtenName := by
  unfold Field.tag Field.writtenName
  split
  · next c cs h => simp [h]
  · next h =>
    rw [if_pos]
    cases ht : f.tagname with
    | none => exact .inl rfl
    | some s =>
      cases s with
      | nil => exact .inr rfl
      | cons c cs => exact absurd ht (h c cs)

theorem childTag_eq (f : Field) (ns : Option Str) (q : Bool) : childTag f f.tag ns q = childName f ns q := by
  rw [tag_eq]
  unfold childTag childName Field.nsIn
  cases f.nspace with
  | none =>
    cases ns with
    | none => cases q <;> simp
    | some n => cases q <;> cases n <;> simp [QName.mk']
  | some n => cases q <;> cases n <;> simp [QName.mk']

theorem childNs_eq (f : Field) (ns : Option Str) : childNs f ns = f.nsIn ns := rfl

theorem isNil_iff {v : Val} : v.isNil = true ↔ v = .nil := by cases v <;> simp [Val.isNil]
theorem isNone_iff {v : Val} : v.isNone = true ↔ v = Val.none := by
  cases v with
  | atom a => cases a <;> simp [Val.isNone, Val.none]
  | _ => simp [Val.isNone, Val.none]

theorem xmlText_ok {s t : Str} (h : xmlText s = .ok t) : t = s := by
  unfold xmlText at h; split at h
  · injection h with h; exact h.symm
  · cases h

theorem optText_ok {s t : Option Str} (h : optText s = .ok t) : t = s := by
  cases s with
  | none => injection h with h; exact h.symm
  | some s =>
    simp only [optText, map_eq_ok] at h
    obtain ⟨t, ht, rfl⟩ := h
    rw [xmlText_ok ht]

theorem renderChild_child {T : Table} {n : Nat} {f : Field} {v : Val} {ns : Option Str} {q : Bool} {k : Xml}
    (h : renderChild (renderCls T n) f f.tag v ns q = .ok k) : Child T n f ns q v k := by
  unfold renderChild at h
  simp only [childTag_eq, childNs_eq] at h
  split at h
  · next hn =>
    rw [isNil_iff] at hn; subst hn
    injection h with h; subst h
    exact .nil
  · next hn =>
    have hv : v ≠ .nil := fun h => hn (isNil_iff.2 h)
    rw [bind_eq_ok] at h
    obtain ⟨⟨o, t⟩, h1, h2⟩ := h
    injection h2 with h2; subst h2
    unfold renderType at h1
    split at h1
    · next s hs =>
      simp only [bind_eq_ok] at h1
      obtain ⟨txt, ht, txt', ht', h1⟩ := h1
      rw [optText_ok ht'] at h1
      injection h1 with h1
      injection h1 with h1 h2
      subst h1 h2
      have : mkElem (childName f ns q) { attrs := s.extraAttrs } txt = .elem (childName f ns q) s.extraAttrs txt [] := by
        cases s <;> rfl
      simp only [this]
      exact .simple hv hs ht
    · next c hc =>
      rw [bind_eq_ok] at h1
      obtain ⟨o', ho, h1⟩ := h1
      injection h1 with h1
      injection h1 with h1 h2
      subst h1 h2
      exact .complex hv hc ho
    · cases h1

theorem listItems_items {v : Val} {is : List Val} (h : listItems v = .ok is) : Items v is := by
  unfold listItems at h
  split at h
  · injection h with h; subst h; exact .list
  · injection h with h; subst h; exact .text
  · cases h

theorem renderList_children {T : Table} {n : Nat} {f : Field} {v : Val} {ns : Option Str} {q : Bool} {o : Out}
    (hk : f.kind = .list) (h : renderList (renderCls T n) f v ns q = .ok o) :
    Contributes T n f ns q v o.kids ∧ o.attrs = [] := by
  simp only [renderList, bind_eq_ok, raiseIf_eq_ok] at h
  obtain ⟨is, hi, _, hmin, _, hmax, ks, hks, h⟩ := h
  injection h with h; subst h
  refine ⟨.list hk (listItems_items hi) ((mapE_ok_iff.1 hks).imp fun _ _ h => renderChild_child h) ?_ ?_, rfl⟩
  · intro m hm h0
    rw [hm] at hmin
    simp only [minViolated, Bool.and_eq_false_iff, bne_eq_false_iff_eq, decide_eq_false_iff_not] at hmin
    rcases hmin with h | h
    · exact absurd h h0
    · omega
  · intro m hm h0
    rw [hm] at hmax
    simp only [maxViolated, Bool.and_eq_false_iff, bne_eq_false_iff_eq, decide_eq_false_iff_not] at hmax
    rcases hmax with h | h
    · exact absurd h h0
    · omega

theorem renderNamed_children {T : Table} {n : Nat} {f : Field} {v : Val} {ns : Option Str} {q : Bool} {o : Out}
    (hk : f.kind = .classNamed) (h : renderNamed T (renderCls T n) f v = .ok o) :
    Contributes T n f ns q v o.kids ∧ o.attrs = [] := by
  unfold renderNamed at h
  split at h
  · injection h with h; subst h; exact ⟨.noName hk, rfl⟩
  · split at h
    · next hname hvalue =>
      split at h
      · injection h with h; subst h; exact ⟨.noValue hk hvalue, rfl⟩
      · split at h
        · next hs ht =>
          simp only [bind_eq_ok] at h
          obtain ⟨loc, hloc, o', ho, h⟩ := h
          injection h with h; subst h
          refine ⟨?_, rfl⟩
          unfold namedLoc at hloc
          split at hloc
          · injection hloc with hloc; subst hloc
            exact .named hk hname hvalue hs ht ho
          · next hne =>
            split at hloc
            · cases hloc
            · injection hloc with hloc; subst hloc
              exact .noNameText hk hname (fun loc h => hne loc h) hvalue hs ht ho
        · cases h
      · cases h
    · cases h
  · cases h

theorem renderAttr_children {f : Field} {v : Val} {o : Out} (h : renderAttr f v = .ok o) : o.kids = [] := by
  unfold renderAttr at h
  split at h
  · split at h
    · cases h
    · injection h with h; subst h; rfl
  · split at h
    · split at h
      · injection h with h; subst h; rfl
      · cases h
    · split at h
      · simp only [bind_eq_ok] at h
        obtain ⟨_, _, _, _, h⟩ := h
        injection h with h; subst h; rfl
      · cases h

theorem isGroupInst_iff {T : Table} {v : Val} : v.isGroupInst T = true ↔ v.IsGroup T := by
  cases v with
  | inst c fs x =>
    simp only [Val.isGroupInst, Val.IsGroup]
    constructor
    · intro h; exact ⟨c, fs, x, rfl, h⟩
    · rintro ⟨_, _, _, h, h'⟩; injection h with h1 _ _; subst h1; exact h'
  | _ => simp [Val.isGroupInst, Val.IsGroup]

theorem renderRef_children {T : Table} {n : Nat} {f : Field} {v : Val} {ns : Option Str} {q : Bool} {o : Out}
    (hk : f.kind = .ref ∨ f.kind = .content) (h : renderRef T (renderCls T n) f v ns q = .ok o) :
    Contributes T n f ns q v o.kids := by
  unfold renderRef at h
  split at h
  · cases h
  · next hnone =>
    have hv : v ≠ Val.none := fun h => hnone h
    rw [bind_eq_ok] at h
    obtain ⟨⟨o', t⟩, h1, h2⟩ := h
    injection h2 with h2; subst h2
    by_cases hg : v.isGroupInst T = true
    · simp only [hg, if_true]
      rw [isGroupInst_iff] at hg
      unfold renderType at h1
      split at h1
      · next s hs =>
        simp only [bind_eq_ok] at h1
        obtain ⟨txt, ht, txt', ht', h1⟩ := h1
        injection h1 with h1
        injection h1 with h1 h2
        subst h1 h2
        exact .groupAsText hk hg hs
      · next c hc =>
        rw [bind_eq_ok] at h1
        obtain ⟨o', ho, h1⟩ := h1
        injection h1 with h1
        injection h1 with h1 h2
        subst h1 h2
        exact .group hk hv hg hc ho
      · cases h1
    · simp only [hg, tag_eq]
      exact .other hk hv

theorem renderField_contributes {T : Table} {n : Nat} {f : Field} {v : Val} {ns : Option Str} {q : Bool} {o : Out}
    (h : renderField T (renderCls T n) f v ns q = .ok o) : Contributes T n f ns q v o.kids := by
  unfold renderField at h
  split at h
  · next hk =>
    split at h
    · next hn => rw [isNone_iff] at hn; subst hn; injection h with h; subst h; exact .absent hk
    · next hn =>
      rw [bind_eq_ok] at h
      obtain ⟨k, h1, h2⟩ := h
      injection h2 with h2; subst h2
      exact .single hk (fun h => hn (isNone_iff.2 h)) (renderChild_child h1)
  · next hk => exact (renderNamed_children hk h).1
  · next hk => rw [renderAttr_children h]; exact .attribute hk
  · next hk => exact renderRef_children (.inl hk) h
  · next hk => exact renderRef_children (.inr hk) h
  · next hk => exact (renderList_children hk h).1

theorem renderFields_parts {T : Table} {rc : RenderCls} {vals : List (Str × Val)} {ns : Option Str} {q : Bool}
    {fs : List Field} {o : Out} (h : renderFields T rc vals ns q fs = .ok o) :
    ∃ parts : List Out, All2 (fun f p => ∃ v, Dict.get? vals f.name = some v ∧ renderField T rc f v ns q = .ok p) fs parts ∧
      o.kids = (parts.map (·.kids)).flatten ∧ o.attrs = (parts.map (·.attrs)).flatten := by
  induction fs generalizing o with
  | nil => injection h with h; subst h; exact ⟨[], .nil, rfl, rfl⟩
  | cons f fs ih =>
    simp only [renderFields, bind_eq_ok] at h
    obtain ⟨v, hv, p, hp, os, hos, h⟩ := h
    injection h with h; subst h
    obtain ⟨parts, h1, h2, h3⟩ := ih hos
    refine ⟨p :: parts, .cons ⟨v, ?_, hp⟩ h1, by simp [Out.append, h2], by simp [Out.append, h3]⟩
    unfold getAttr at hv
    split at hv
    · next hg => injection hv with hv; subst hv; exact hg
    · cases hv

theorem all2_map_right {α β γ : Type} {R : α → β → Prop} {S : α → γ → Prop} {g : β → γ} {as : List α} {bs : List β}
    (h : All2 R as bs) (hi : ∀ a b, R a b → S a (g b)) : All2 S as (bs.map g) := by
  induction h with
  | nil => exact .nil
  | cons hr _ ih => exact .cons (hi _ _ hr) ih

theorem all2_append_left {α β : Type} {R : α → β → Prop} {as as' : List α} {bs : List β} (h : All2 R (as ++ as') bs) :
    ∃ bs1 bs2, bs = bs1 ++ bs2 ∧ All2 R as bs1 ∧ All2 R as' bs2 := by
  induction as generalizing bs with
  | nil => exact ⟨[], bs, rfl, .nil, h⟩
  | cons a as ih =>
    cases h with
    | cons hr ht =>
      obtain ⟨b1, b2, rfl, h1, h2⟩ := ih ht
      exact ⟨_ :: b1, b2, rfl, .cons hr h1, h2⟩

theorem renderCls_fields {T : Table} {n : Nat} {c : ClsId} {v : Val} {ns : Option Str} {q : Bool} {o : Out}
    (hh : (T c).header = false) (h : renderCls T (n + 1) c v ns q = .ok o) :
    (v = Val.none ∧ o = {}) ∨ ∃ c' vals x, v = .inst c' vals x ∧
      renderFields T (renderCls T n) vals (innerNs T c ns) q (T c').fields = .ok o := by
  unfold renderCls at h
  split at h
  · next c' vals x =>
    simp only [hh, Bool.false_eq_true, false_and, if_false] at h
    exact .inr ⟨c', vals, x, rfl, h⟩
  · rw [if_neg (by simp [hh])] at h
    injection h with h; subst h
    exact .inl ⟨rfl, rfl⟩
  · cases h

/-- The namespace in effect for the children of an instance: that of the schema owning its class, else that of the
enclosing call. -/
def nsInside (T : Table) (c : ClsId) (ns : Option Str) : Option Str :=
  match (T c).schema with
  | some s => s.targetNamespace
  | none => ns

/-- **C23.** The children of a rendered instance are the children contributed by its fields, field by field in
declaration order (`Contributes` says what one field contributes: nothing for None and for attributes, one child per
list item in list order, and so on). -/
theorem C23_children_in_declaration_order (T : Table) (n : Nat) (c c' : ClsId) (vals : List (Str × Val))
    (x : Option Xml) (ns : Option Str) (q : Bool) (hh : (T c).header = false) (o : Out)
    (h : renderCls T (n + 1) c (.inst c' vals x) ns q = .ok o) :
    ∃ parts : List (List Xml), o.kids = parts.flatten ∧
      All2 (fun f ks => ∃ v, Dict.get? vals f.name = some v ∧ Contributes T n f (nsInside T c ns) q v ks)
        (T c').fields parts := by
  rcases renderCls_fields hh h with ⟨h, _⟩ | ⟨c1, vals1, x1, he, h⟩
  · cases h
  · injection he with h1 h2 h3; subst h1 h2 h3
    obtain ⟨parts, h1, h2, _⟩ := renderFields_parts h
    refine ⟨parts.map (·.kids), h2, ?_⟩
    exact all2_map_right h1 fun f p ⟨v, hv, hr⟩ => ⟨v, hv, renderField_contributes hr⟩

/-- **C23 (seen from one field).** The children of a field stand together, after those of all fields declared before it
and before those of all fields declared after it. -/
theorem C23_order (T : Table) (n : Nat) (c c' : ClsId) (vals : List (Str × Val))
    (x : Option Xml) (ns : Option Str) (q : Bool) (hh : (T c).header = false) (o : Out)
    (h : renderCls T (n + 1) c (.inst c' vals x) ns q = .ok o)
    (pre post : List Field) (f : Field) (hf : (T c').fields = pre ++ f :: post) :
    ∃ kpre ks kpost v, o.kids = kpre ++ ks ++ kpost ∧ Dict.get? vals f.name = some v ∧
      Contributes T n f (nsInside T c ns) q v ks ∧
      (∃ parts, kpre = parts.flatten ∧
        All2 (fun f ks => ∃ v, Dict.get? vals f.name = some v ∧ Contributes T n f (nsInside T c ns) q v ks) pre parts) ∧
      (∃ parts, kpost = parts.flatten ∧
        All2 (fun f ks => ∃ v, Dict.get? vals f.name = some v ∧ Contributes T n f (nsInside T c ns) q v ks) post parts) := by
  obtain ⟨parts, h1, h2⟩ := C23_children_in_declaration_order T n c c' vals x ns q hh o h
  rw [hf] at h2
  obtain ⟨p1, p2, rfl, ha, hb⟩ := all2_append_left h2
  cases hb with
  | @cons _ ks _ p2 hb1 hb2 =>
    obtain ⟨v, hv, hc⟩ := hb1
    exact ⟨p1.flatten, ks, p2.flatten, v, by simp [h1], hv, hc, ⟨p1, rfl, ha⟩, ⟨p2, rfl, hb2⟩⟩

/-- A person with two tags. -/
def exPerson : Val := .inst 0 [(py"id", .atom (.int 7)), (py"name", .atom (.str py"Ann")), (py"age", .nil),
  (py"tags", .list true [.atom (.str py"a"), .atom (.str py"b")]), (py"address", Val.none),
  (py"contact", .inst 2 [(py"email", .atom (.str py"e"))] none)] none

example : ∃ o, renderCls Ex.table 3 0 exPerson none true = .ok o ∧ o.kids.length = 5 := ⟨_, rfl, rfl⟩

/-! ### C21 -/

/-- **C21.** If an instance renders, the value of every list field - a TypedList, a plain list that was assigned,
anything that can be iterated - respects the non-zero limits of the field, and the output has exactly one child per
item, in order, in one run. -/
theorem C21_occurrence_limits (T : Table) (n : Nat) (c c' : ClsId) (vals : List (Str × Val))
    (x : Option Xml) (ns : Option Str) (q : Bool) (hh : (T c).header = false) (o : Out)
    (h : renderCls T (n + 1) c (.inst c' vals x) ns q = .ok o) (f : Field) (hf : f ∈ (T c').fields)
    (hk : f.kind = .list) :
    ∃ v is kpre ks kpost, Dict.get? vals f.name = some v ∧ Items v is ∧
      (∀ m, f.minOccurs = some m → m ≠ 0 → m ≤ is.length) ∧
      (∀ m, f.maxOccurs = some (.int m) → m ≠ 0 → (is.length : Int) ≤ m) ∧
      o.kids = kpre ++ ks ++ kpost ∧ ks.length = is.length ∧ All2 (Child T n f (nsInside T c ns) q) is ks := by
  obtain ⟨pre, post, hsplit⟩ := List.append_of_mem hf
  obtain ⟨kpre, ks, kpost, v, h1, h2, h3, _⟩ := C23_order T n c c' vals x ns q hh o h pre post f hsplit
  cases h3 with
  | list _ hi ha hmin hmax => exact ⟨v, _, kpre, ks, kpost, h2, hi, hmin, hmax, h1, ha.length.symm, ha⟩
  | «attribute» h => rw [hk] at h; cases h
  | absent h => rw [hk] at h; cases h
  | single h => rw [hk] at h; cases h
  | noName h => rw [hk] at h; cases h
  | noValue h => rw [hk] at h; cases h
  | named h => rw [hk] at h; cases h
  | noNameText h => rw [hk] at h; cases h
  | group h => rw [hk] at h; rcases h with h | h <;> cases h
  | groupAsText h => rw [hk] at h; rcases h with h | h <;> cases h
  | other h => rw [hk] at h; rcases h with h | h <;> cases h

/-- An overfull list is rejected: with more than `maxOccurs` (or fewer than `minOccurs`) items nothing is rendered. -/
theorem C21_violation_raises (T : Table) (n : Nat) (c c' : ClsId) (vals : List (Str × Val)) (x : Option Xml)
    (ns : Option Str) (q : Bool) (hh : (T c).header = false) (f : Field) (hf : f ∈ (T c').fields)
    (hk : f.kind = .list) (t : Bool) (is : List Val) (hv : Dict.get? vals f.name = some (.list t is))
    (hbad : (∃ m, f.minOccurs = some m ∧ m ≠ 0 ∧ (is.length : Int) < m) ∨
      (∃ m, f.maxOccurs = some (.int m) ∧ m ≠ 0 ∧ m < is.length)) (o : Out) :
    renderCls T n c (.inst c' vals x) ns q ≠ .ok o := by
  intro h
  cases n with
  | zero => cases h
  | succ n =>
    obtain ⟨v, is', _, _, _, h1, h2, h3, h4, _⟩ := C21_occurrence_limits T n c c' vals x ns q hh o h f hf hk
    rw [hv] at h1; injection h1 with h1; subst h1
    cases h2
    rcases hbad with ⟨m, hm, h0, hl⟩ | ⟨m, hm, h0, hl⟩
    · have := h3 m hm h0; omega
    · have := h4 m hm h0; omega

/-- Four tags where three are allowed, put into a plain list. -/
example (o : Out) : renderCls Ex.table 3 0 (.inst 0 (Dict.set [(py"id", .atom (.int 7)), (py"name", Val.none),
    (py"age", .nil), (py"tags", Val.none), (py"address", Val.none), (py"contact", Val.none)] py"tags"
    (.list false [Val.none, Val.none, Val.none, Val.none])) none) none true ≠ .ok o :=
  C21_violation_raises Ex.table 3 0 0 _ none none true rfl
    { name := py"tags", kind := .list, type := .simple (.string {}), tagname := some py"tag", maxOccurs := some (.int 3) }
    (by simp [Ex.table, Ex.person]) rfl false [Val.none, Val.none, Val.none, Val.none] rfl
    (.inr ⟨3, rfl, by decide, by decide⟩) o

/-! ### C22 -/

theorem attrGet_set_self (a : List (QName × Str)) (q : QName) (v : Str) : attrGet (attrSet a q v) q = some v := by
  induction a with
  | nil => simp [attrSet, attrGet]
  | cons p r ih =>
    obtain ⟨k, w⟩ := p
    simp only [attrSet]
    split
    · next h => simp [attrGet, h]
    · next h => simp [attrGet, h, ih]

theorem attrGet_set_other (a : List (QName × Str)) (q q' : QName) (v : Str) (h : q' ≠ q) :
    attrGet (attrSet a q v) q' = attrGet a q' := by
  induction a with
  | nil => simp [attrSet, attrGet, h.symm]
  | cons p r ih =>
    obtain ⟨k, w⟩ := p
    simp only [attrSet]
    split
    · next hk => subst hk; simp [attrGet, h.symm]
    · next hk => simp only [attrGet, ih]

/-- Looking up after a series of settings: the last setting of the name counts. -/
theorem attrGet_setAll (a s : List (QName × Str)) (q : QName) :
    attrGet (attrSetAll a s) q = match attrGet s.reverse q with | some v => some v | none => attrGet a q := by
  induction s generalizing a with
  | nil => rfl
  | cons p r ih =>
    have happ : ∀ (l : List (QName × Str)) (p : QName × Str), attrGet (l ++ [p]) q =
        match attrGet l q with | some v => some v | none => attrGet [p] q := by
      intro l p
      induction l with
      | nil => rfl
      | cons x xs ih =>
        obtain ⟨k, w⟩ := x
        simp only [List.cons_append, attrGet]
        split
        · rfl
        · exact ih
    show attrGet (attrSetAll (attrSet a p.1 p.2) r) q = _
    rw [ih, List.reverse_cons, happ]
    cases attrGet r.reverse q with
    | some v => rfl
    | none =>
      simp only
      by_cases hq : q = p.1
      · subst hq; rw [attrGet_set_self]; simp [attrGet]
      · rw [attrGet_set_other _ _ _ _ hq]
        have hq' : ¬ p.1 = q := fun h => hq h.symm
        simp [attrGet, hq']

theorem attrGet_mem {a : List (QName × Str)} {q : QName} {v : Str} (h : attrGet a q = some v) : (q, v) ∈ a := by
  induction a with
  | nil => cases h
  | cons p r ih =>
    obtain ⟨k, w⟩ := p
    simp only [attrGet] at h
    split at h
    · next hk => injection h with h; subst hk h; simp
    · exact List.mem_cons_of_mem _ (ih h)

theorem attrGet_of_mem {a : List (QName × Str)} {q : QName} {v : Str} (h : (q, v) ∈ a) : ∃ w, attrGet a q = some w := by
  induction a with
  | nil => cases h
  | cons p r ih =>
    obtain ⟨k, w⟩ := p
    simp only [attrGet]
    split
    · exact ⟨w, rfl⟩
    · next hk =>
      rcases List.mem_cons.1 h with h | h
      · injection h with h1 h2; exact absurd h1.symm hk
      · exact ih h

theorem attrGet_setAll_none {s : List (QName × Str)} {q : QName} (h : ∀ p ∈ s, p.1 ≠ q) :
    attrGet (attrSetAll [] s) q = none := by
  rw [attrGet_setAll]
  cases hg : attrGet s.reverse q with
  | none => rfl
  | some v => exact absurd rfl (h (q, v) (by simpa using attrGet_mem hg))

theorem attrGet_setAll_some {s : List (QName × Str)} {q : QName} {v : Str} (h : (q, v) ∈ s) :
    ∃ w, attrGet (attrSetAll [] s) q = some w := by
  rw [attrGet_setAll]
  obtain ⟨w, hw⟩ := attrGet_of_mem (a := s.reverse) (q := q) (v := v) (by simpa using h)
  exact ⟨w, by rw [hw]⟩

theorem renderAttr_ok {f : Field} {v : Val} {o : Out} (h : renderAttr f v = .ok o) :
    (v = Val.none ∧ f.required = false ∧ o.attrs = []) ∨
    (v = .nil ∧ f.nillable = true ∧ o.attrs = [(⟨none, f.writtenName⟩, py"nil")]) ∨
    (v ≠ Val.none ∧ v ≠ .nil ∧ ∃ s t, f.type = .simple s ∧ s.xmlvalue v.toAtom = .ok (some t) ∧
      o.attrs = [(⟨none, f.writtenName⟩, t)]) := by
  rw [← tag_eq]
  unfold renderAttr at h
  split at h
  · next hn =>
    rw [isNone_iff] at hn; subst hn
    split at h
    · cases h
    · next hr => injection h with h; subst h; exact .inl ⟨rfl, by simpa using hr, rfl⟩
  · next hn =>
    split at h
    · next hnil =>
      rw [isNil_iff] at hnil; subst hnil
      split at h
      · next hb => injection h with h; subst h; exact .inr (.inl ⟨rfl, hb, rfl⟩)
      · cases h
    · next hnil =>
      split at h
      · next s hs =>
        simp only [bind_eq_ok] at h
        obtain ⟨t, ht, t', ht', h⟩ := h
        injection h with h; subst h
        cases t with
        | none => cases ht'
        | some t =>
          have := xmlText_ok ht'; subst this
          exact .inr (.inr ⟨fun h => hn (isNone_iff.2 h), fun h => hnil (isNil_iff.2 h), s, t', hs, ht, rfl⟩)
      · cases h

/-- **C22 (missing).** An instance in which a required attribute is None never renders. -/
theorem C22_required_attribute_missing (T : Table) (n : Nat) (c c' : ClsId) (vals : List (Str × Val)) (x : Option Xml)
    (ns : Option Str) (q : Bool) (hh : (T c).header = false) (f : Field) (hf : f ∈ (T c').fields)
    (hk : f.kind = .attribute) (hr : f.required = true) (hv : Dict.get? vals f.name = some Val.none) (o : Out) :
    renderCls T n c (.inst c' vals x) ns q ≠ .ok o := by
  intro h
  cases n with
  | zero => cases h
  | succ n =>
    rcases renderCls_fields hh h with ⟨h, _⟩ | ⟨c1, vals1, x1, he, h⟩
    · cases h
    · injection he with h1 h2 h3; subst h1 h2 h3
      obtain ⟨parts, hp, _⟩ := renderFields_parts h
      obtain ⟨p, _, v, hv', hr'⟩ := hp.mem_left hf
      rw [hv] at hv'; injection hv' with hv'; subst hv'
      simp only [renderField, hk] at hr'
      rcases renderAttr_ok hr' with ⟨_, h, _⟩ | ⟨h, _⟩ | ⟨h, _⟩
      · rw [hr] at h; cases h
      · cases h
      · exact h rfl

/-- **C22 (which error).** If everything declared before the attribute renders, the error is a ValueError. -/
theorem C22_required_attribute_valueError (T : Table) (n : Nat) (c c' : ClsId) (vals : List (Str × Val))
    (x : Option Xml) (ns : Option Str) (q : Bool) (hh : (T c).header = false) (pre post : List Field) (f : Field)
    (hf : (T c').fields = pre ++ f :: post) (hk : f.kind = .attribute) (hr : f.required = true)
    (hv : Dict.get? vals f.name = some Val.none)
    (hpre : ∀ g ∈ pre, ∃ v o, Dict.get? vals g.name = some v ∧
      renderField T (renderCls T n) g v (nsInside T c ns) q = .ok o) :
    renderCls T (n + 1) c (.inst c' vals x) ns q = .error .valueError := by
  have key : ∀ pre : List Field, (∀ g ∈ pre, ∃ v o, Dict.get? vals g.name = some v ∧
      renderField T (renderCls T n) g v (nsInside T c ns) q = .ok o) →
      renderFields T (renderCls T n) vals (nsInside T c ns) q (pre ++ f :: post) = .error .valueError := by
    intro pre
    induction pre with
    | nil =>
      intro _
      simp only [List.nil_append, renderFields, getAttr, hv, renderField, hk, renderAttr, Val.isNone, hr]
      rfl
    | cons g gs ih =>
      intro hpre
      obtain ⟨v, o, h1, h2⟩ := hpre g (by simp)
      have := ih fun g' hg' => hpre g' (by simp [hg'])
      simp only [List.cons_append, renderFields, getAttr, h1]
      show (renderField T (renderCls T n) g v (nsInside T c ns) q >>= _) = _
      rw [h2]
      show (renderFields T (renderCls T n) vals (nsInside T c ns) q (gs ++ f :: post) >>= _) = _
      rw [this]; rfl
  simp only [renderCls, hh, Bool.false_eq_true, false_and, if_false]
  rw [hf]
  exact key pre hpre

/-- **C22 (present).** Every required attribute appears on the rendered element; it was not None. -/
theorem C22_required_attribute_present (T : Table) (n : Nat) (c c' : ClsId) (vals : List (Str × Val)) (x : Option Xml)
    (ns : Option Str) (q : Bool) (hh : (T c).header = false) (o : Out)
    (h : renderCls T (n + 1) c (.inst c' vals x) ns q = .ok o) (f : Field) (hf : f ∈ (T c').fields)
    (hk : f.kind = .attribute) (hr : f.required = true) :
    ∃ v t, Dict.get? vals f.name = some v ∧ v ≠ Val.none ∧
      attrGet (attrSetAll [] o.attrs) ⟨none, f.writtenName⟩ = some t := by
  rcases renderCls_fields hh h with ⟨h, _⟩ | ⟨c1, vals1, x1, he, h⟩
  · cases h
  · injection he with h1 h2 h3; subst h1 h2 h3
    obtain ⟨parts, hp, _, ha⟩ := renderFields_parts h
    obtain ⟨p, hpm, v, hv, hr'⟩ := hp.mem_left hf
    simp only [renderField, hk] at hr'
    have hsub : ∀ a ∈ p.attrs, a ∈ o.attrs := by
      intro a hap; rw [ha]; exact List.mem_flatten.2 ⟨p.attrs, List.mem_map.2 ⟨p, hpm, rfl⟩, hap⟩
    rcases renderAttr_ok hr' with ⟨_, h, _⟩ | ⟨rfl, _, h⟩ | ⟨hn, _, s, t, _, _, h⟩
    · rw [hr] at h; cases h
    · obtain ⟨t, ht⟩ := attrGet_setAll_some (hsub (⟨none, f.writtenName⟩, py"nil") (by rw [h]; simp))
      exact ⟨_, t, hv, by simp [Val.none], ht⟩
    · obtain ⟨t, ht⟩ := attrGet_setAll_some (hsub (⟨none, f.writtenName⟩, t) (by rw [h]; simp))
      exact ⟨_, t, hv, hn, ht⟩

/-- **C22 (omitted).** An optional attribute that is None does not appear, provided no other attribute has the same tag
and no group or content field adds attributes of its own. -/
theorem C22_optional_attribute_omitted (T : Table) (n : Nat) (c c' : ClsId) (vals : List (Str × Val)) (x : Option Xml)
    (ns : Option Str) (q : Bool) (hh : (T c).header = false) (o : Out)
    (h : renderCls T (n + 1) c (.inst c' vals x) ns q = .ok o) (f : Field)
    (hv : Dict.get? vals f.name = some Val.none)
    (huniq : ∀ g ∈ (T c').fields, g.kind ≠ .ref ∧ g.kind ≠ .content ∧
      (g.kind = .attribute → g.name ≠ f.name → g.writtenName ≠ f.writtenName)) :
    attrGet (attrSetAll [] o.attrs) ⟨none, f.writtenName⟩ = none := by
  rcases renderCls_fields hh h with ⟨h, _⟩ | ⟨c1, vals1, x1, he, h⟩
  · cases h
  · injection he with h1 h2 h3; subst h1 h2 h3
    obtain ⟨parts, hp, _, ha⟩ := renderFields_parts h
    refine attrGet_setAll_none ?_
    intro a haa
    rw [ha, List.mem_flatten] at haa
    obtain ⟨l, hl, hal⟩ := haa
    obtain ⟨p, hpm, rfl⟩ := List.mem_map.1 hl
    obtain ⟨g, hg, v, hgv, hr⟩ := hp.mem_right hpm
    obtain ⟨h1, h2, h3⟩ := huniq g hg
    unfold renderField at hr
    split at hr
    · split at hr
      · injection hr with hr; subst hr; cases hal
      · rw [bind_eq_ok] at hr
        obtain ⟨k, _, hr⟩ := hr
        injection hr with hr; subst hr; cases hal
    · next hk => rw [(renderNamed_children (ns := none) (q := q) hk hr).2] at hal; cases hal
    · next hk =>
      rcases renderAttr_ok hr with ⟨_, _, h⟩ | ⟨rfl, _, h⟩ | ⟨hn, _, s, t, _, _, h⟩
      · rw [h] at hal; cases hal
      · rw [h, List.mem_singleton] at hal
        subst hal
        simp only [ne_eq, QName.mk.injEq, true_and]
        refine h3 hk ?_
        intro hn; rw [hn, hv] at hgv; cases hgv
      · rw [h, List.mem_singleton] at hal
        subst hal
        simp only [ne_eq, QName.mk.injEq, true_and]
        refine h3 hk ?_
        intro hnn; rw [hnn, hv] at hgv; injection hgv with hgv; exact hn hgv.symm
    · next hk => exact absurd hk h1
    · next hk => exact absurd hk h2
    · next hk => rw [(renderList_children hk hr).2] at hal; cases hal

/-- A person without an id. -/
example (o : Out) : renderCls Ex.table 3 0 (.inst 0 [(py"id", Val.none)] none) none true ≠ .ok o :=
  C22_required_attribute_missing Ex.table 3 0 0 _ none none true rfl
    { name := py"id", kind := .attribute, type := .simple (.integer {}) } (by simp [Ex.table, Ex.person]) rfl rfl rfl o

/-! ### C26 -/

/-- The tags of a run of children. -/
def AllTagged (ks : List Xml) (tag : QName) : Prop := ∀ k ∈ ks, ∃ a t s, k = .elem tag a t s

theorem Child.tag {T : Table} {n : Nat} {f : Field} {ns : Option Str} {q : Bool} {v : Val} {k : Xml}
    (h : Child T n f ns q v k) : ∃ a t s, k = .elem (childName f ns q) a t s := by
  cases h with
  | nil => exact ⟨_, _, _, rfl⟩
  | simple => exact ⟨_, _, _, rfl⟩
  | complex => exact ⟨_, _, _, rfl⟩

/-- **C26.** All children of an Element or ListElement field have the same tag: its local name is the field's tag name,
and it is qualified exactly when the form is 'qualified' and there is a non-empty namespace - the field's own one if it
has one, else the target namespace of the schema owning the class, else the namespace given by the enclosing call. -/
theorem C26_qualification (T : Table) (n : Nat) (c c' : ClsId) (vals : List (Str × Val)) (x : Option Xml)
    (ns : Option Str) (q : Bool) (hh : (T c).header = false) (o : Out)
    (h : renderCls T (n + 1) c (.inst c' vals x) ns q = .ok o)
    (pre post : List Field) (f : Field) (hf : (T c').fields = pre ++ f :: post)
    (hk : f.kind = .element ∨ f.kind = .list) :
    ∃ kpre ks kpost tag, o.kids = kpre ++ ks ++ kpost ∧ AllTagged ks tag ∧ tag.loc = f.writtenName ∧
      (∀ u, tag.ns = some u ↔ q = true ∧ u ≠ [] ∧
        (f.nspace = some u ∨
          (f.nspace = none ∧ ((∃ s, (T c).schema = some s ∧ s.targetNamespace = some u) ∨
            ((T c).schema = none ∧ ns = some u))))) := by
  obtain ⟨kpre, ks, kpost, v, h1, h2, h3, _⟩ := C23_order T n c c' vals x ns q hh o h pre post f hf
  refine ⟨kpre, ks, kpost, childName f (nsInside T c ns) q, h1, ?_, ?_, ?_⟩
  · cases h3 with
    | list _ hi ha hmin hmax =>
      intro k hkm
      obtain ⟨v, _, hc⟩ := ha.mem_right hkm
      exact hc.tag
    | single _ _ hc => intro k hkm; rw [List.mem_singleton] at hkm; subst hkm; exact hc.tag
    | «attribute» h => rcases hk with hk | hk <;> (rw [hk] at h; cases h)
    | absent h => intro k hk; cases hk
    | noName h => intro k hk; cases hk
    | noValue h => intro k hk; cases hk
    | named h => rcases hk with hk | hk <;> (rw [hk] at h; cases h)
    | noNameText h => rcases hk with hk | hk <;> (rw [hk] at h; cases h)
    | group h => rcases hk with hk | hk <;> (rw [hk] at h; rcases h with h | h <;> cases h)
    | groupAsText h => rcases hk with hk | hk <;> (rw [hk] at h; rcases h with h | h <;> cases h)
    | other h => rcases hk with hk | hk <;> (rw [hk] at h; rcases h with h | h <;> cases h)
  · unfold childName; split <;> rfl
  · intro u
    unfold childName Field.nsIn nsInside
    cases q with
    | false => simp
    | true =>
      cases hn : f.nspace with
      | some m =>
        cases m with
        | nil => simp
        | cons a as =>
          simp
          rintro rfl; simp
      | none =>
        cases hs : (T c).schema with
        | some s =>
          cases ht : s.targetNamespace with
          | none => simp [ht]
          | some m =>
            cases m with
            | nil => simp [ht]
            | cons a as =>
              simp [ht]
              rintro rfl; simp
        | none =>
          cases ns with
          | none => simp
          | some m =>
            cases m with
            | nil => simp
            | cons a as =>
              simp
              rintro rfl; simp

/-- The children of the example person are in the namespace of its schema. -/
example : ∃ o, renderCls Ex.table 3 0 exPerson none true = .ok o ∧
    (o.kids.take 4).all (fun k => match k with | .elem q _ _ _ => q.ns = some py"urn:p" | _ => false) = true :=
  ⟨_, rfl, by decide⟩

/-! ### C24 -/

/-- **C24 (storing).** NIL can be assigned to a field (other than a list field) only if it is nillable, and then it is
stored as NIL... -/
theorem C24_assign (T : Table) (hT : T.Wf) (nw : ClsId → Except Exn Val) (c : ClsId) (fs : List (Str × Val))
    (x : Option Xml) (f : Field) (hf : f ∈ (T c).fields) (hk : f.kind ≠ .list) (v : Val)
    (h : setAttr T nw (.inst c fs x) f.name .nil = .ok v) : f.nillable = true ∧ v.attr f.name = some .nil := by
  rw [setAttr_eq (hT c) hf, bind_eq_ok] at h
  obtain ⟨w, hw, h⟩ := h
  injection h with h; subst h
  simp only [Field.accept, if_neg hk, bind_eq_ok] at hw
  obtain ⟨_, _, hw⟩ := hw
  simp only [Field.acceptItem, Val.isNil, if_true] at hw
  split at hw
  · next hn => injection hw with hw; subst hw; exact ⟨hn, get_set_self _ _ _⟩
  · cases hw

/-- ... and a field value becomes NIL by no other assignment. -/
theorem C24_only_nil (T : Table) (nw : ClsId → Except Exn Val) (f : Field) (hk : f.kind ≠ .list)
    (v : Val) (h : f.accept T nw v = .ok .nil) :
    v = .nil ∧ f.nillable = true := by
  simp only [Field.accept, if_neg hk, bind_eq_ok] at h
  obtain ⟨_, _, h⟩ := h
  unfold Field.acceptItem at h
  split at h
  · next hn =>
    split at h
    · next hb => exact ⟨isNil_iff.1 hn, hb⟩
    · cases h
  · next hn =>
    cases ht : f.type with
    | any => rw [ht] at h; cases h
    | simple s =>
      rw [ht] at h
      simp only [FType.accept, map_eq_ok] at h
      obtain ⟨_, _, h⟩ := h
      cases h
    | complex c =>
      rw [ht] at h
      simp only [FType.accept] at h
      have := acceptCls_id h
      subst this
      exact absurd rfl hn

/-- **C24 (lists).** NIL can be appended to the list of a field only if the field is nillable. -/
theorem C24_append (T : Table) (nw : ClsId → Except Exn Val) (f : Field) (is js : List Val)
    (h : typedAppend T nw f is .nil = .ok js) : f.nillable = true ∧ js = is ++ [.nil] := by
  simp only [typedAppend, bind_eq_ok] at h
  obtain ⟨_, _, w, hw, _, _, h⟩ := h
  injection h with h; subst h
  simp only [Field.acceptItem, Val.isNil, if_true] at hw
  split at hw
  · next hn => injection hw with hw; subst hw; exact ⟨hn, rfl⟩
  · cases hw

/-- Assigning a whole list is not checked: NIL gets into a list that is not nillable. -/
theorem C24_list_assignment_unchecked : ∃ v, setAttr Ex.table (newInst Ex.table 5) exPerson py"tags" (.list false [.nil]) =
    .ok v ∧ v.attr py"tags" = some (.list false [.nil]) := ⟨_, rfl, rfl⟩

/-- **C24 (rendering).** NIL renders as an empty element whose only attribute is `xsi:nil="true"`, None as nothing. -/
theorem C24_render (T : Table) (n : Nat) (c c' : ClsId) (vals : List (Str × Val)) (x : Option Xml)
    (ns : Option Str) (q : Bool) (hh : (T c).header = false) (o : Out)
    (h : renderCls T (n + 1) c (.inst c' vals x) ns q = .ok o)
    (pre post : List Field) (f : Field) (hf : (T c').fields = pre ++ f :: post) (hk : f.kind = .element) :
    ∃ kpre ks kpost, o.kids = kpre ++ ks ++ kpost ∧
      (Dict.get? vals f.name = some .nil → ∃ tag, ks = [.elem tag [(qNil, py"true")] none []]) ∧
      (Dict.get? vals f.name = some Val.none → ks = []) := by
  obtain ⟨kpre, ks, kpost, v, h1, h2, h3, _⟩ := C23_order T n c c' vals x ns q hh o h pre post f hf
  refine ⟨kpre, ks, kpost, h1, ?_, ?_⟩
  · intro hv
    rw [hv] at h2; injection h2 with h2; subst h2
    generalize hw : Val.nil = w at h3
    cases h3 with
    | single _ _ hc =>
      subst hw
      generalize hw : Val.nil = w at hc
      cases hc with
      | nil => exact ⟨_, rfl⟩
      | simple h => exact absurd hw.symm h
      | complex h => exact absurd hw.symm h
    | list h => rw [hk] at h; cases h
    | «attribute» h => rw [hk] at h; cases h
    | absent h => cases hw
    | noName h => cases hw
    | noValue h => cases hw
    | named h => cases hw
    | noNameText h => cases hw
    | group h => rw [hk] at h; rcases h with h | h <;> cases h
    | groupAsText h => rw [hk] at h; rcases h with h | h <;> cases h
    | other h => rw [hk] at h; rcases h with h | h <;> cases h
  · intro hv
    rw [hv] at h2; injection h2 with h2; subst h2
    generalize hw : Val.none = w at h3
    cases h3 with
    | single _ hne hc => exact absurd hw.symm hne
    | list h => rw [hk] at h; cases h
    | «attribute» h => rfl
    | absent h => rfl
    | noName h => rfl
    | noValue h => cases hw
    | named h => cases hw
    | noNameText h => cases hw
    | group h => rw [hk] at h; rcases h with h | h <;> cases h
    | groupAsText h => rfl
    | other h => rw [hk] at h; rcases h with h | h <;> cases h

/-- C24: the name of the attribute. -/
theorem C24_nil_name : qNil = ⟨some py"http://www.w3.org/2001/XMLSchema-instance", py"nil"⟩ := rfl

/-- **C24 (reading back).** An element marked `xsi:nil="true"` is read as NIL by a single-valued field, and (for any
non-empty mark) by a list field. -/
theorem C24_read (T : Table) (N n : Nat) (f : Field) (u : Xml) (w : Val) (hu : u.attr qNil = some py"true") :
    (ReadAs T N n f u w → w = .nil ∧ f.nillable = true) ∧ (ReadItem T N n f u w → w = .nil ∧ f.nillable = true) := by
  constructor
  · intro h
    cases h with
    | nil _ hn => exact ⟨rfl, hn⟩
    | simple h => exact absurd hu h
    | complex h => exact absurd hu h
  · intro h
    cases h with
    | nil _ _ hn => exact ⟨rfl, hn⟩
    | simple h =>
      rcases h with h | h
      · rw [show attrGet _ qNil = _ from hu] at h; cases h
      · rw [show attrGet _ qNil = _ from hu] at h; cases h
    | complex h =>
      rcases h with h | h <;> (rw [hu] at h; cases h)

/-- The NIL age of the example person survives rendering and reading. -/
example : ∃ x v, toXml Ex.table 4 exPerson py"person" none true = .ok x ∧ parseCls Ex.table 5 5 0 x = .ok v ∧
    v.attr py"age" = some .nil := ⟨_, _, rfl, rfl, rfl⟩

end Soapfish
