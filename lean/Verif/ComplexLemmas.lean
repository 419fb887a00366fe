import Verif.Complex
import Verif.SimpleLemmas
/-
Lemmas about the complex-type model.
-/
namespace Soapfish

/-! ### Except -/

theorem bind_eq_ok {α β} {x : Except Exn α} {f : α → Except Exn β} {b : β} :
    (x >>= f) = .ok b ↔ ∃ a, x = .ok a ∧ f a = .ok b := by
  cases x with
  | error e => constructor <;> intro h
               · cases h
               · obtain ⟨a, h, _⟩ := h; cases h
  | ok a => constructor
            · intro h; exact ⟨a, rfl, h⟩
            · rintro ⟨a', h, h'⟩; injection h with h; subst h; exact h'

theorem map_eq_ok {α β} {x : Except Exn α} {f : α → β} {b : β} :
    x.map f = .ok b ↔ ∃ a, x = .ok a ∧ f a = b := by
  cases x with
  | error e => constructor <;> intro h
               · cases h
               · obtain ⟨a, h, _⟩ := h; cases h
  | ok a => constructor
            · intro h; injection h with h; exact ⟨a, rfl, h⟩
            · rintro ⟨a', h, h'⟩; injection h with h; subst h; subst h'; rfl

theorem raiseIf_eq_ok {b : Bool} {e : Exn} {u : Unit} : raiseIf b e = .ok u ↔ b = false := by
  cases b <;> simp [raiseIf]

theorem mapE_ok_iff {α β} {f : α → Except Exn β} {l : List α} {bs : List β} :
    mapE f l = .ok bs ↔ All2 (fun a b => f a = .ok b) l bs := by
  induction l generalizing bs with
  | nil =>
    constructor
    · intro h; injection h with h; subst h; exact .nil
    · intro h; cases h; rfl
  | cons a as ih =>
    simp only [mapE, bind_eq_ok]
    constructor
    · rintro ⟨b, hb, bs', hbs, h⟩
      injection h with h; subst h
      exact .cons hb (ih.1 hbs)
    · intro h
      cases h with
      | cons h1 h2 => exact ⟨_, h1, _, ih.2 h2, rfl⟩

theorem foldE_append {α σ} {f : σ → α → Except Exn σ} {s : σ} {l l' : List α} :
    foldE f s (l ++ l') = (foldE f s l >>= fun s => foldE f s l') := by
  induction l generalizing s with
  | nil => rfl
  | cons a as ih =>
    simp only [List.cons_append, foldE]
    cases f s a with
    | error e => rfl
    | ok s' => exact ih

/-! ### All2 -/

theorem All2.length {α β} {R : α → β → Prop} {as bs} (h : All2 R as bs) : as.length = bs.length := by
  induction h with
  | nil => rfl
  | cons _ _ ih => simp [ih]

theorem All2.imp {α β} {R S : α → β → Prop} {as bs} (h : All2 R as bs) (hi : ∀ a b, R a b → S a b) : All2 S as bs := by
  induction h with
  | nil => exact .nil
  | cons h _ ih => exact .cons (hi _ _ h) ih

theorem All2.mem_left {α β} {R : α → β → Prop} {as bs} (h : All2 R as bs) {a} (ha : a ∈ as) : ∃ b ∈ bs, R a b := by
  induction h with
  | nil => cases ha
  | cons h _ ih =>
    cases ha with
    | head => exact ⟨_, by simp, h⟩
    | tail _ ha => obtain ⟨b, hb, hr⟩ := ih ha; exact ⟨b, by simp [hb], hr⟩

theorem All2.mem_right {α β} {R : α → β → Prop} {as bs} (h : All2 R as bs) {b} (hb : b ∈ bs) : ∃ a ∈ as, R a b := by
  induction h with
  | nil => cases hb
  | cons h _ ih =>
    cases hb with
    | head => exact ⟨_, by simp, h⟩
    | tail _ hb => obtain ⟨a, ha, hr⟩ := ih hb; exact ⟨a, by simp [ha], hr⟩

theorem All2.imp_mem {α β} {R S : α → β → Prop} {as bs} (h : All2 R as bs)
    (hi : ∀ a ∈ as, ∀ b ∈ bs, R a b → S a b) : All2 S as bs := by
  induction h with
  | nil => exact .nil
  | cons h _ ih =>
    exact .cons (hi _ (by simp) _ (by simp) h) (ih (fun a ha b hb => hi a (by simp [ha]) b (by simp [hb])))

theorem All2.append {α β} {R : α → β → Prop} {as bs as' bs'} (h : All2 R as bs) (h' : All2 R as' bs') :
    All2 R (as ++ as') (bs ++ bs') := by
  induction h with
  | nil => exact h'
  | cons h _ ih => exact .cons h ih

theorem All2.flip {α β} {R : α → β → Prop} {as bs} (h : All2 R as bs) : All2 (fun b a => R a b) bs as := by
  induction h with
  | nil => exact .nil
  | cons h _ ih => exact .cons h ih

theorem All2.refl {α} {R : α → α → Prop} (hr : ∀ a, R a a) (as : List α) : All2 R as as := by
  induction as with
  | nil => exact .nil
  | cons a as ih => exact .cons (hr a) ih

theorem All2.comp {α β γ} {R : α → β → Prop} {S : β → γ → Prop} {as bs cs} (h : All2 R as bs) (h' : All2 S bs cs) :
    All2 (fun a c => ∃ b, R a b ∧ S b c) as cs := by
  induction h generalizing cs with
  | nil => cases h'; exact .nil
  | cons h _ ih => cases h' with | cons h1 h2 => exact .cons ⟨_, h, h1⟩ (ih h2)

theorem All2.map_eq {α β} {f : α → β} {as : List α} {bs : List β} : All2 (fun a b => f a = b) as bs ↔ as.map f = bs := by
  constructor
  · intro h
    induction h with
    | nil => rfl
    | cons h _ ih => simp [h, ih]
  · rintro rfl
    induction as with
    | nil => exact .nil
    | cons a as ih => exact .cons rfl ih

/-! ### Dictionaries -/

section Dict
variable {α : Type}

theorem get_set_self (d : Dict α) (k : Str) (v : α) : Dict.get? (Dict.set d k v) k = some v := by
  induction d with
  | nil => simp [Dict.set, Dict.get?]
  | cons p r ih =>
    obtain ⟨k', v'⟩ := p
    simp only [Dict.set]
    split
    · next h => subst h; simp [Dict.get?]
    · next h => simp [Dict.get?, h, ih]

theorem get_set_other (d : Dict α) (k k' : Str) (v : α) (h : k' ≠ k) :
    Dict.get? (Dict.set d k v) k' = Dict.get? d k' := by
  induction d with
  | nil => simp [Dict.set, Dict.get?, Ne.symm h]
  | cons p r ih =>
    obtain ⟨k1, v1⟩ := p
    simp only [Dict.set]
    split
    · next h1 => subst h1; simp [Dict.get?, Ne.symm h]
    · next h1 => simp only [Dict.get?, ih]

theorem keys_set (d : Dict α) (k : Str) (v : α) (h : k ∈ d.map (·.1)) : (Dict.set d k v).map (·.1) = d.map (·.1) := by
  induction d with
  | nil => simp at h
  | cons p r ih =>
    obtain ⟨k1, v1⟩ := p
    simp only [Dict.set]
    split
    · rfl
    · next h1 =>
      simp only [List.map_cons, List.mem_cons] at h
      rcases h with h | h
      · exact absurd h.symm h1
      · simp [ih h]

theorem set_same (d : Dict α) (k : Str) (v : α) (h : Dict.get? d k = some v) : Dict.set d k v = d := by
  induction d with
  | nil => simp [Dict.get?] at h
  | cons p r ih =>
    obtain ⟨k1, v1⟩ := p
    simp only [Dict.get?] at h
    simp only [Dict.set]
    split at h
    · next h1 => injection h with h; subst h; simp [h1]
    · next h1 => simp [h1, ih h]

theorem get_isSome_iff (d : Dict α) (k : Str) : (∃ v, Dict.get? d k = some v) ↔ k ∈ d.map (·.1) := by
  induction d with
  | nil => simp [Dict.get?]
  | cons p r ih =>
    obtain ⟨k1, v1⟩ := p
    simp only [Dict.get?, List.map_cons, List.mem_cons]
    split
    · next h => simp [h]
    · next h => rw [ih]; constructor
                · exact .inr
                · rintro (h' | h')
                  · exact absurd h'.symm h
                  · exact h'

theorem get_none_iff (d : Dict α) (k : Str) : Dict.get? d k = none ↔ k ∉ d.map (·.1) := by
  rw [← get_isSome_iff]
  cases Dict.get? d k <;> simp

theorem dict_ext {d d' : Dict α} (hk : d.map (·.1) = d'.map (·.1)) (hn : (d.map (·.1)).Nodup)
    (hg : ∀ k, Dict.get? d k = Dict.get? d' k) : d = d' := by
  induction d generalizing d' with
  | nil => cases d' with
    | nil => rfl
    | cons p r => simp at hk
  | cons p r ih =>
    cases d' with
    | nil => simp at hk
    | cons p' r' =>
      obtain ⟨k, v⟩ := p
      obtain ⟨k', v'⟩ := p'
      simp only [List.map_cons, List.cons.injEq] at hk
      obtain ⟨rfl, hk⟩ := hk
      simp only [List.map_cons, List.nodup_cons] at hn
      have h0 := hg k
      simp only [Dict.get?, if_true, Option.some.injEq] at h0
      subst h0
      congr 1
      refine ih hk hn.2 (fun q => ?_)
      have := hg q
      simp only [Dict.get?] at this
      split at this
      · next h =>
        subst h
        rw [(get_none_iff r k).2 hn.1, (get_none_iff r' k).2 (hk ▸ hn.1)]
      · exact this

end Dict

/-! ### Field tables -/

/-- Attribute names of a class are unique, as in every Python class. -/
def NamesNodup (c : Cls) : Prop := (c.fields.map (·.name)).Nodup

theorem findField_mem {fs : List Field} {f : Field} (hn : (fs.map (·.name)).Nodup) (hf : f ∈ fs) :
    findField fs f.name = .ok f := by
  induction fs with
  | nil => cases hf
  | cons g r ih =>
    simp only [findField]
    simp only [List.map_cons, List.nodup_cons, List.mem_map, not_exists, not_and] at hn
    cases hf with
    | head => simp
    | tail _ hf =>
      rw [if_neg (fun h => hn.1 f hf h.symm)]
      exact ih hn.2 hf

theorem findField_ok {fs : List Field} {name : Str} {f : Field} (h : findField fs name = .ok f) :
    f ∈ fs ∧ f.name = name := by
  induction fs with
  | nil => cases h
  | cons g r ih =>
    simp only [findField] at h
    split at h
    · next h1 => injection h with h; subst h; exact ⟨by simp, h1⟩
    · obtain ⟨h1, h2⟩ := ih h; exact ⟨by simp [h1], h2⟩

theorem findField_error {fs : List Field} {name : Str} (h : ∀ f ∈ fs, f.name ≠ name) :
    findField fs name = .error .valueError := by
  induction fs with
  | nil => rfl
  | cons g r ih =>
    simp only [findField]
    rw [if_neg (h g (by simp))]
    exact ih (fun f hf => h f (by simp [hf]))

/-- The dictionary of an instance has exactly the declared names, in order. -/
def Shaped (c : Cls) (fs : List (Str × Val)) : Prop := fs.map (·.1) = c.fields.map (·.name)

theorem Shaped.get {c : Cls} {fs : List (Str × Val)} (h : Shaped c fs) {f : Field} (hf : f ∈ c.fields) :
    ∃ v, Dict.get? fs f.name = some v := by
  rw [get_isSome_iff, h]; exact List.mem_map.2 ⟨f, hf, rfl⟩

theorem Shaped.set {c : Cls} {fs : List (Str × Val)} (h : Shaped c fs) {f : Field} (hf : f ∈ c.fields) (v : Val) :
    Shaped c (Dict.set fs f.name v) := by
  unfold Shaped
  rw [keys_set _ _ _ (by rw [h]; exact List.mem_map.2 ⟨f, hf, rfl⟩)]
  exact h

/-- Values found through a list of fields with unique names. -/
theorem zip_get {β : Type} {fs : List Field} {d : List (Str × β)} {P : Field → β → Prop}
    (h : All2 (fun f p => p.1 = f.name ∧ P f p.2) fs d) (hn : (fs.map (·.name)).Nodup) :
    d.map (·.1) = fs.map (·.name) ∧ ∀ f ∈ fs, ∃ v, Dict.get? d f.name = some v ∧ P f v := by
  induction h with
  | nil => exact ⟨rfl, by simp⟩
  | @cons f p fs d hp _ ih =>
    obtain ⟨k, v⟩ := p
    obtain ⟨rfl, hp⟩ := hp
    simp only [List.map_cons, List.nodup_cons, List.mem_map, not_exists, not_and] at hn
    obtain ⟨h1, h2⟩ := ih hn.2
    refine ⟨by simp [h1], ?_⟩
    intro g hg
    cases hg with
    | head => exact ⟨v, by simp [Dict.get?], hp⟩
    | tail _ hg =>
      obtain ⟨w, hw, hP⟩ := h2 g hg
      refine ⟨w, ?_, hP⟩
      simp only [Dict.get?]
      rw [if_neg (fun h => hn.1 g hg h.symm)]
      exact hw

theorem newInst_ok {T : Table} {N : Nat} {c : ClsId} {v : Val} (hn : NamesNodup (T c)) (h : newInst T N c = .ok v) :
    ∃ M es, N = M + 1 ∧ v = .inst c es none ∧ Shaped (T c) es ∧
      ∀ f ∈ (T c).fields, ∃ e w, emptyValue (newInst T M) f = .ok e ∧ f.accept T (newInst T M) e = .ok w ∧
        Dict.get? es f.name = some w := by
  cases N with
  | zero => cases h
  | succ M =>
    simp only [newInst, bind_eq_ok] at h
    obtain ⟨es, hes, h⟩ := h
    injection h with h; subst h
    rw [mapE_ok_iff] at hes
    have h2 : All2 (fun (f : Field) (p : Str × Val) => p.1 = f.name ∧
        ∃ e, emptyValue (newInst T M) f = .ok e ∧ f.accept T (newInst T M) e = .ok p.2) (T c).fields es := by
      refine hes.imp ?_
      rintro f p hp
      simp only [bind_eq_ok] at hp
      obtain ⟨e, he, w, hw, h⟩ := hp
      injection h with h; subst h
      exact ⟨rfl, e, he, hw⟩
    obtain ⟨h3, h4⟩ := zip_get (P := fun f w => ∃ e, emptyValue (newInst T M) f = .ok e ∧ f.accept T (newInst T M) e = .ok w) h2 hn
    refine ⟨M, es, rfl, rfl, h3, fun f hf => ?_⟩
    obtain ⟨w, hw, e, he, ha⟩ := h4 f hf
    exact ⟨e, w, he, ha, hw⟩

/-! ### Parsing field by field -/

/-- The value of one single-valued field from one element. -/
def elemVal (T : Table) (nw : ClsId → Except Exn Val) (pc : ParseCls) (f : Field) (x : Xml) : Except Exn Val := do
  evaluate nw f.type
  let v ← (if x.attr qNil = some py"true" then .ok .nil else parseType pc f.type x)
  f.accept T nw v

/-- The list of a list field after one more element. -/
def itemVal (T : Table) (nw : ClsId → Except Exn Val) (pc : ParseCls) (f : Field) (cur : Val) (x : Xml) :
    Except Exn Val := do
  evaluate nw f.type
  let v ← (if x.attr qNil ≠ none ∧ x.attr qNil ≠ some [] then .ok .nil else parseType pc f.type x)
  match cur with
  | .list true items => do
    let items ← typedAppend T nw f items v
    .ok (.list true items)
  | .list false items => .ok (.list false (items ++ [v]))
  | _ => .error .attributeError

def oneVal (T : Table) (nw : ClsId → Except Exn Val) (pc : ParseCls) (f : Field) (cur : Val) (x : Xml) :
    Except Exn Val :=
  if f.kind = .list then itemVal T nw pc f cur x else elemVal T nw pc f x

def attrVal (T : Table) (nw : ClsId → Except Exn Val) (f : Field) (x : Xml) : Except Exn Val := do
  evaluate nw f.type
  let v ← attrValue f (x.attr ⟨none, f.name⟩)
  f.accept T nw (.atom v)

/-- What one field becomes, from the value it had. -/
def fieldVal (T : Table) (nw : ClsId → Except Exn Val) (pc : ParseCls) (f : Field) (cur : Val) (x : Xml) :
    Except Exn Val :=
  match f.kind with
  | .attribute => attrVal T nw f x
  | .ref | .content => elemVal T nw pc f x
  | _ => do
    let subs ← findSub f x.kids
    foldE (oneVal T nw pc f) cur subs

/-- Replace the value of a field. -/
def putVal (f : Field) (r : Val → Except Exn Val) (v : Val) : Except Exn Val :=
  match v with
  | .inst c fs x =>
    match Dict.get? fs f.name with
    | some cur => do
      let w ← r cur
      .ok (.inst c (Dict.set fs f.name w) x)
    | none => .error .attributeError
  | _ => .error .attributeError

theorem setAttr_eq {T : Table} {nw : ClsId → Except Exn Val} {c : ClsId} {fs : List (Str × Val)} {x : Option Xml}
    {f : Field} (hn : NamesNodup (T c)) (hf : f ∈ (T c).fields) (w : Val) :
    setAttr T nw (.inst c fs x) f.name w = (f.accept T nw w >>= fun w => .ok (.inst c (Dict.set fs f.name w) x)) := by
  simp only [setAttr, findField_mem hn hf, bind_ok]

theorem bind_assoc' {α β γ} (x : Except Exn α) (f : α → Except Exn β) (g : β → Except Exn γ) :
    (x >>= f) >>= g = x >>= fun a => f a >>= g := by
  cases x <;> rfl

theorem parseElement_eq {T : Table} {nw : ClsId → Except Exn Val} {pc : ParseCls} {c : ClsId}
    {fs : List (Str × Val)} {x : Option Xml} {f : Field} (hn : NamesNodup (T c)) (hf : f ∈ (T c).fields)
    (hs : Shaped (T c) fs) (k : Xml) :
    parseElement T nw pc f (.inst c fs x) k = putVal f (fun _ => elemVal T nw pc f k) (.inst c fs x) := by
  obtain ⟨cur, hc⟩ := hs.get hf
  simp only [parseElement, putVal, hc, elemVal, setAttr_eq hn hf, bind_assoc']

theorem parseAttr_eq {T : Table} {nw : ClsId → Except Exn Val} {c : ClsId}
    {fs : List (Str × Val)} {x : Option Xml} {f : Field} (hn : NamesNodup (T c)) (hf : f ∈ (T c).fields)
    (hs : Shaped (T c) fs) (k : Xml) :
    parseAttr T nw f (.inst c fs x) k = putVal f (fun _ => attrVal T nw f k) (.inst c fs x) := by
  obtain ⟨cur, hc⟩ := hs.get hf
  simp only [parseAttr, putVal, hc, attrVal, setAttr_eq hn hf, bind_assoc']

theorem parseItem_eq {T : Table} {nw : ClsId → Except Exn Val} {pc : ParseCls} {c : ClsId}
    {fs : List (Str × Val)} {x : Option Xml} {f : Field} (hf : f ∈ (T c).fields)
    (hs : Shaped (T c) fs) (k : Xml) :
    parseItem T nw pc f (.inst c fs x) k = putVal f (fun cur => itemVal T nw pc f cur k) (.inst c fs x) := by
  obtain ⟨cur, hc⟩ := hs.get hf
  simp only [parseItem, putVal, hc, itemVal, appendAttr, bind_assoc']
  congr 1; funext _
  congr 1; funext v
  match cur with
  | .list true items => simp only [bind_assoc', bind_ok]
  | .list false items => rfl
  | .nil => rfl
  | .atom a => rfl
  | .inst _ _ _ => rfl

theorem parseOne_eq {T : Table} {nw : ClsId → Except Exn Val} {pc : ParseCls} {c : ClsId}
    {fs : List (Str × Val)} {x : Option Xml} {f : Field} (hn : NamesNodup (T c)) (hf : f ∈ (T c).fields)
    (hs : Shaped (T c) fs) (k : Xml) :
    parseOne T nw pc f (.inst c fs x) k = putVal f (fun cur => oneVal T nw pc f cur k) (.inst c fs x) := by
  unfold parseOne oneVal
  split
  · exact parseItem_eq hf hs k
  · exact parseElement_eq hn hf hs k

theorem set_set (d : Dict Val) (k : Str) (v w : Val) : Dict.set (Dict.set d k v) k w = Dict.set d k w := by
  induction d with
  | nil => simp [Dict.set]
  | cons p r ih =>
    obtain ⟨k1, v1⟩ := p
    simp only [Dict.set]
    split
    · next h => simp [Dict.set, h]
    · next h => simp [Dict.set, h, ih]

/-- A loop of replacements of one field is one replacement. -/
theorem foldE_putVal {T : Table} {nw : ClsId → Except Exn Val} {pc : ParseCls} {c : ClsId}
    {x : Option Xml} {f : Field} (hn : NamesNodup (T c)) (hf : f ∈ (T c).fields) (ks : List Xml) :
    ∀ {fs : List (Str × Val)}, Shaped (T c) fs →
    foldE (parseOne T nw pc f) (.inst c fs x) ks =
      putVal f (fun cur => foldE (oneVal T nw pc f) cur ks) (.inst c fs x) := by
  induction ks with
  | nil =>
    intro fs hs
    obtain ⟨cur, hc⟩ := hs.get hf
    simp only [foldE, putVal, hc, bind_ok, set_same _ _ _ hc]
  | cons k ks ih =>
    intro fs hs
    obtain ⟨cur, hc⟩ := hs.get hf
    simp only [foldE, parseOne_eq hn hf hs, putVal, hc, bind_assoc', bind_ok]
    cases hw : oneVal T nw pc f cur k with
    | error e => rfl
    | ok w =>
      simp only [bind_ok]
      rw [ih (hs.set hf w)]
      simp only [putVal, get_set_self, set_set]

theorem parseSeq_eq {T : Table} {nw : ClsId → Except Exn Val} {pc : ParseCls} {c : ClsId}
    {fs : List (Str × Val)} {x : Option Xml} {f : Field} (hn : NamesNodup (T c)) (hf : f ∈ (T c).fields)
    (hs : Shaped (T c) fs) (hk : f.kind.isField) (y : Xml) :
    parseSeq T nw pc y (.inst c fs x) f = putVal f (fun cur => fieldVal T nw pc f cur y) (.inst c fs x) := by
  obtain ⟨cur, hc⟩ := hs.get hf
  have hv : fieldVal T nw pc f cur y = (findSub f y.kids >>= fun subs => foldE (oneVal T nw pc f) cur subs) := by
    unfold fieldVal
    cases hkind : f.kind <;> rw [hkind] at hk <;> simp [Kind.isField] at hk ⊢
  simp only [parseSeq, putVal, hc, hv, bind_assoc']
  congr 1; funext subs
  rw [foldE_putVal hn hf subs hs]
  simp only [putVal, hc]

/-- A loop that replaces each of a list of distinct fields once. -/
theorem foldE_fields {c : Cls} {ci : ClsId} {x : Option Xml} {val : Field → Val → Except Exn Val}
    {step : Val → Field → Except Exn Val} (hn : NamesNodup c) (L : List Field)
    (hL : ∀ f ∈ L, f ∈ c.fields) (hLn : (L.map (·.name)).Nodup)
    (hstep : ∀ f ∈ L, ∀ fs, Shaped c fs → step (.inst ci fs x) f = putVal f (val f) (.inst ci fs x))
    {fs : List (Str × Val)} (hs : Shaped c fs) (v : Val) :
    foldE step (.inst ci fs x) L = .ok v ↔
      ∃ fs', v = .inst ci fs' x ∧ Shaped c fs' ∧
        (∀ f ∈ L, ∃ cur w, Dict.get? fs f.name = some cur ∧ val f cur = .ok w ∧ Dict.get? fs' f.name = some w) ∧
        (∀ k, (∀ f ∈ L, f.name ≠ k) → Dict.get? fs' k = Dict.get? fs k) := by
  induction L generalizing fs with
  | nil =>
    simp only [foldE]
    constructor
    · intro h; injection h with h; subst h; exact ⟨fs, rfl, hs, by simp, by simp⟩
    · rintro ⟨fs', rfl, hs', -, hk⟩
      have hkk : ∀ k, Dict.get? fs k = Dict.get? fs' k := fun k => (hk k (by simp)).symm
      have := dict_ext (by rw [hs, hs']) (by rw [hs]; exact hn) hkk
      rw [this]
  | cons f L ih =>
    simp only [List.map_cons, List.nodup_cons, List.mem_map, not_exists, not_and] at hLn
    have hf : f ∈ c.fields := hL f (by simp)
    obtain ⟨cur, hc⟩ := hs.get hf
    simp only [foldE, hstep f (by simp) fs hs, putVal, hc, bind_assoc', bind_ok]
    rw [bind_eq_ok]
    have ih' := fun (w : Val) => ih (fun g hg => hL g (by simp [hg])) hLn.2
      (fun g hg => hstep g (by simp [hg])) (hs.set hf w)
    constructor
    · rintro ⟨w, hw, h⟩
      obtain ⟨fs', rfl, hs', h1, h2⟩ := (ih' w).1 h
      refine ⟨fs', rfl, hs', ?_, ?_⟩
      · intro g hg
        cases hg with
        | head =>
          refine ⟨cur, w, hc, hw, ?_⟩
          rw [h2 _ (fun g hg => hLn.1 g hg), get_set_self]
        | tail _ hg =>
          obtain ⟨cur', w', hc', hw', hg'⟩ := h1 g hg
          rw [get_set_other _ _ _ _ (hLn.1 g hg)] at hc'
          exact ⟨cur', w', hc', hw', hg'⟩
      · intro k hk
        rw [h2 k (fun g hg => hk g (by simp [hg])), get_set_other _ _ _ _ (Ne.symm (hk f (by simp)))]
    · rintro ⟨fs', rfl, hs', h1, h2⟩
      obtain ⟨cur', w, hc', hw, hg⟩ := h1 f (by simp)
      rw [hc] at hc'; injection hc' with hc'; subst hc'
      refine ⟨w, hw, (ih' w).2 ⟨fs', rfl, hs', ?_, ?_⟩⟩
      · intro g hg
        obtain ⟨cur', w', hc', hw', hg'⟩ := h1 g (by simp [hg])
        refine ⟨cur', w', ?_, hw', hg'⟩
        rw [get_set_other _ _ _ _ (hLn.1 g hg)]
        exact hc'
      · intro k hk
        by_cases hkf : k = f.name
        · subst hkf; rw [get_set_self, hg]
        · rw [get_set_other _ _ _ _ hkf]
          refine h2 k (fun g hg => ?_)
          cases hg with
          | head => exact Ne.symm hkf
          | tail _ hg => exact hk g hg

theorem nodup_filter_names {c : Cls} (hn : NamesNodup c) (p : Field → Bool) : ((c.fields.filter p).map (·.name)).Nodup :=
  hn.sublist ((List.filter_sublist).map _)

theorem kind_cases (f : Field) :
    (f.kind = .attribute ∧ f.kind.isField = false ∧ f.kind.isGroup = false) ∨
    (f.kind ≠ .attribute ∧ f.kind.isField = true ∧ f.kind.isGroup = false) ∨
    (f.kind ≠ .attribute ∧ f.kind.isField = false ∧ f.kind.isGroup = true) := by
  cases f.kind <;> simp [Kind.isField, Kind.isGroup]

theorem name_inj {c : Cls} (hn : NamesNodup c) {f g : Field} (hf : f ∈ c.fields) (hg : g ∈ c.fields)
    (h : f.name = g.name) : f = g := by
  have h1 := findField_mem hn hf
  have h2 := findField_mem hn hg
  rw [h] at h1
  rw [h1] at h2
  injection h2

/-- Parsing an element with a class that is not a Choice succeeds exactly when every field can be read, and gives
the instance made of these values. -/
theorem parseCls_ok_iff {T : Table} {N n : Nat} {c : ClsId} {x : Xml} {v : Val} (hn : NamesNodup (T c))
    (hch : (T c).choice = false) :
    parseCls T N (n + 1) c x = .ok v ↔
      ∃ es fs, newInst T N c = .ok (.inst c es none) ∧ v = .inst c fs (some x) ∧ Shaped (T c) fs ∧
        ∀ f ∈ (T c).fields, ∃ e w, Dict.get? es f.name = some e ∧
          fieldVal T (newInst T N) (parseCls T N n) f e x = .ok w ∧ Dict.get? fs f.name = some w := by
  have hval : ∀ f ∈ (T c).attrs, ∀ fs, Shaped (T c) fs →
      parseAttr T (newInst T N) f (.inst c fs (some x)) x =
        putVal f (fun _ => fieldVal T (newInst T N) (parseCls T N n) f .nil x) (.inst c fs (some x)) := by
    intro f hf fs hs
    simp only [Cls.attrs, List.mem_filter, decide_eq_true_eq] at hf
    rw [parseAttr_eq hn hf.1 hs]
    simp only [fieldVal, hf.2]
  have hgrp : ∀ f ∈ (T c).groups, ∀ fs, Shaped (T c) fs →
      parseElement T (newInst T N) (parseCls T N n) f (.inst c fs (some x)) x =
        putVal f (fun _ => fieldVal T (newInst T N) (parseCls T N n) f .nil x) (.inst c fs (some x)) := by
    intro f hf fs hs
    simp only [Cls.groups, List.mem_filter] at hf
    rw [parseElement_eq hn hf.1 hs]
    have : fieldVal T (newInst T N) (parseCls T N n) f .nil x = elemVal T (newInst T N) (parseCls T N n) f x := by
      unfold fieldVal
      cases hk : f.kind <;> simp [hk, Kind.isGroup] at hf ⊢
    rw [this]
  have hseq : ∀ f ∈ (T c).elems, ∀ fs, Shaped (T c) fs →
      parseSeq T (newInst T N) (parseCls T N n) x (.inst c fs (some x)) f =
        putVal f (fun cur => fieldVal T (newInst T N) (parseCls T N n) f cur x) (.inst c fs (some x)) := by
    intro f hf fs hs
    simp only [Cls.elems, List.mem_filter] at hf
    exact parseSeq_eq hn hf.1 hs hf.2 x
  have hcur : ∀ f : Field, f.kind.isField = false → ∀ a b, fieldVal T (newInst T N) (parseCls T N n) f a x =
      fieldVal T (newInst T N) (parseCls T N n) f b x := by
    intro f hf a b
    unfold fieldVal
    cases hk : f.kind <;> simp [hk, Kind.isField] at hf ⊢
  have sub1 : ∀ f ∈ (T c).attrs, f ∈ (T c).fields := fun f hf => (List.mem_filter.1 hf).1
  have sub2 : ∀ f ∈ (T c).elems, f ∈ (T c).fields := fun f hf => (List.mem_filter.1 hf).1
  have sub3 : ∀ f ∈ (T c).groups, f ∈ (T c).fields := fun f hf => (List.mem_filter.1 hf).1
  have r1 := fun {fs} (hs : Shaped (T c) fs) v => foldE_fields (ci := c) (x := some x)
    (val := fun f _ => fieldVal T (newInst T N) (parseCls T N n) f .nil x)
    (step := fun i f => parseAttr T (newInst T N) f i x) hn (T c).attrs sub1
    (nodup_filter_names hn _) hval hs v
  have r2 := fun {fs} (hs : Shaped (T c) fs) v => foldE_fields (ci := c) (x := some x)
    (val := fun f cur => fieldVal T (newInst T N) (parseCls T N n) f cur x) hn (T c).elems sub2
    (nodup_filter_names hn _) hseq hs v
  have r3 := fun {fs} (hs : Shaped (T c) fs) v => foldE_fields (ci := c) (x := some x)
    (val := fun f _ => fieldVal T (newInst T N) (parseCls T N n) f .nil x)
    (step := fun i f => parseElement T (newInst T N) (parseCls T N n) f i x) hn (T c).groups sub3
    (nodup_filter_names hn _) hgrp hs v
  have dis : ∀ {f : Field} {L : List Field}, f ∈ (T c).fields → (∀ g ∈ L, g ∈ (T c).fields) → f ∉ L →
      ∀ g ∈ L, g.name ≠ f.name := by
    intro f L hf hL hfL g hg h
    exact hfL (name_inj hn (hL g hg) hf h ▸ hg)
  have hchoice : ∀ inst, (if (T c).choice then parseChoice T (newInst T N) (parseCls T N n) x inst (T c).elems
      else foldE (parseSeq T (newInst T N) (parseCls T N n) x) inst (T c).elems) =
      foldE (parseSeq T (newInst T N) (parseCls T N n) x) inst (T c).elems := by
    intro inst; rw [hch]; rfl
  simp only [parseCls, bind_eq_ok, hchoice]
  constructor
  · rintro ⟨i0, h0, i1, h1, i2, h2, h3⟩
    obtain ⟨M, es, -, rfl, hs0, -⟩ := newInst_ok hn h0
    obtain ⟨fs1, rfl, hs1, ha1, hb1⟩ := (r1 hs0 _).1 h1
    obtain ⟨fs2, rfl, hs2, ha2, hb2⟩ := (r2 hs1 _).1 h2
    obtain ⟨fs3, rfl, hs3, ha3, hb3⟩ := (r3 hs2 _).1 h3
    refine ⟨es, fs3, h0, rfl, hs3, ?_⟩
    intro f hf
    rcases kind_cases f with ⟨k1, k2, k3⟩ | ⟨k1, k2, k3⟩ | ⟨k1, k2, k3⟩
    · have m1 : f ∈ (T c).attrs := by simp [Cls.attrs, hf, k1]
      have m2 : f ∉ (T c).elems := by simp [Cls.elems, k2]
      have m3 : f ∉ (T c).groups := by simp [Cls.groups, k3]
      obtain ⟨cur, w, g1, g2, g3⟩ := ha1 f m1
      refine ⟨cur, w, g1, ?_, ?_⟩
      · rw [hcur f k2 cur .nil]; exact g2
      · rw [hb3 _ (dis hf sub3 m3), hb2 _ (dis hf sub2 m2), g3]
    · have m1 : f ∉ (T c).attrs := by simp [Cls.attrs, k1]
      have m2 : f ∈ (T c).elems := by simp [Cls.elems, hf, k2]
      have m3 : f ∉ (T c).groups := by simp [Cls.groups, k3]
      obtain ⟨cur, w, g1, g2, g3⟩ := ha2 f m2
      refine ⟨cur, w, ?_, g2, ?_⟩
      · rw [← hb1 _ (dis hf sub1 m1), g1]
      · rw [hb3 _ (dis hf sub3 m3), g3]
    · have m1 : f ∉ (T c).attrs := by simp [Cls.attrs, k1]
      have m2 : f ∉ (T c).elems := by simp [Cls.elems, k2]
      have m3 : f ∈ (T c).groups := by simp [Cls.groups, hf, k3]
      obtain ⟨cur, w, g1, g2, g3⟩ := ha3 f m3
      refine ⟨cur, w, ?_, ?_, g3⟩
      · rw [← hb1 _ (dis hf sub1 m1), ← hb2 _ (dis hf sub2 m2), g1]
      · rw [hcur f k2 cur .nil]; exact g2
  · rintro ⟨es, fs, h0, rfl, hs, hall⟩
    obtain ⟨M, es', -, he, hs0, -⟩ := newInst_ok hn h0
    injection he with _ he _
    subst he
    -- intermediate dictionaries
    have build : ∀ (p : Field → Bool), ∃ d, Shaped (T c) d ∧ ∀ f ∈ (T c).fields,
        Dict.get? d f.name = if p f then Dict.get? fs f.name else Dict.get? es f.name := by
      intro p
      refine ⟨(T c).fields.map (fun f => (f.name, ((if p f then Dict.get? fs f.name else Dict.get? es f.name).getD .nil))), ?_, ?_⟩
      · simp [Shaped]
      · have hz : All2 (fun (f : Field) (q : Str × Val) => q.1 = f.name ∧
            q.2 = ((if p f then Dict.get? fs f.name else Dict.get? es f.name).getD .nil)) (T c).fields
            ((T c).fields.map (fun f => (f.name, ((if p f then Dict.get? fs f.name else Dict.get? es f.name).getD .nil)))) := by
          refine (All2.map_eq.2 rfl).imp ?_
          rintro a b rfl; exact ⟨rfl, rfl⟩
        obtain ⟨-, hz⟩ := zip_get (P := fun f w => w = ((if p f then Dict.get? fs f.name else Dict.get? es f.name).getD .nil)) hz hn
        intro f hf
        obtain ⟨w, hw, rfl⟩ := hz f hf
        rw [hw]
        obtain ⟨a, ha⟩ := hs.get hf
        obtain ⟨b, hb⟩ := hs0.get hf
        rw [ha, hb]
        split <;> rfl
    obtain ⟨fs1, hs1, g1⟩ := build (fun f => f.kind = .attribute)
    obtain ⟨fs2, hs2, g2⟩ := build (fun f => f.kind = .attribute || f.kind.isField)
    have outside : ∀ {d d' : List (Str × Val)}, Shaped (T c) d → Shaped (T c) d' → ∀ k, (∀ f ∈ (T c).fields, f.name ≠ k) →
        Dict.get? d k = Dict.get? d' k := by
      intro d d' hd hd' k hk
      rw [(get_none_iff d k).2 (by rw [hd]; simp; exact hk), (get_none_iff d' k).2 (by rw [hd']; simp; exact hk)]
    have other : ∀ {d d' : List (Str × Val)} {L : List Field}, Shaped (T c) d → Shaped (T c) d' →
        (∀ f ∈ (T c).fields, f ∉ L → Dict.get? d f.name = Dict.get? d' f.name) →
        ∀ k, (∀ f ∈ L, f.name ≠ k) → Dict.get? d k = Dict.get? d' k := by
      intro d d' L hd hd' h k hk
      by_cases hex : ∃ f ∈ (T c).fields, f.name = k
      · obtain ⟨f, hf, rfl⟩ := hex
        exact h f hf (fun hfL => hk f hfL rfl)
      · exact outside hd hd' k (fun f hf hfk => hex ⟨f, hf, hfk⟩)
    refine ⟨_, h0, .inst c fs1 (some x), (r1 hs0 _).2 ⟨fs1, rfl, hs1, ?_, ?_⟩, .inst c fs2 (some x),
      (r2 hs1 _).2 ⟨fs2, rfl, hs2, ?_, ?_⟩, (r3 hs2 _).2 ⟨fs, rfl, hs, ?_, ?_⟩⟩
    · intro f hf
      obtain ⟨hf1, hf2⟩ := List.mem_filter.1 hf
      simp only [decide_eq_true_eq] at hf2
      obtain ⟨e, w, q1, q2, q3⟩ := hall f hf1
      refine ⟨e, w, q1, ?_, ?_⟩
      · rw [hcur f (by rw [hf2]; rfl) .nil e]; exact q2
      · rw [g1 f hf1]; simp [hf2, q3]
    · refine other hs1 hs0 (fun f hf hfL => ?_)
      rw [g1 f hf]
      simp only [Cls.attrs, List.mem_filter, hf, true_and, decide_eq_true_eq] at hfL
      simp [hfL]
    · intro f hf
      obtain ⟨hf1, hf2⟩ := List.mem_filter.1 hf
      obtain ⟨e, w, q1, q2, q3⟩ := hall f hf1
      have hna : f.kind ≠ .attribute := by intro h; rw [h] at hf2; simp [Kind.isField] at hf2
      refine ⟨e, w, ?_, q2, ?_⟩
      · rw [g1 f hf1]; simp [hna, q1]
      · rw [g2 f hf1]; simp [hf2, q3]
    · refine other hs2 hs1 (fun f hf hfL => ?_)
      rw [g1 f hf, g2 f hf]
      simp only [Cls.elems, List.mem_filter, hf, true_and] at hfL
      simp [hfL]
    · intro f hf
      obtain ⟨hf1, hf2⟩ := List.mem_filter.1 hf
      obtain ⟨e, w, q1, q2, q3⟩ := hall f hf1
      have hna : f.kind ≠ .attribute := by intro h; rw [h] at hf2; simp [Kind.isGroup] at hf2
      have hnf : f.kind.isField = false := by
        rcases kind_cases f with h | h | h
        · exact h.2.1
        · rw [h.2.2] at hf2; cases hf2
        · exact h.2.1
      refine ⟨e, w, ?_, ?_, q3⟩
      · rw [g2 f hf1]; simp [hna, hnf, q1]
      · rw [hcur f hnf .nil e]; exact q2
    · refine other hs hs2 (fun f hf hfL => ?_)
      rw [g2 f hf]
      simp only [Cls.groups, List.mem_filter, hf, true_and] at hfL
      rcases kind_cases f with h | h | h
      · simp [h.1]
      · simp [h.2.1]
      · rw [h.2.2] at hfL; simp at hfL

end Soapfish
