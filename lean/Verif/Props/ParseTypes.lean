import Verif.Props.Parse
/-
Reading documents: C31 (Choice), C33 (types).
-/
namespace Soapfish

/-! ### C31 -/

theorem parseChoice_elem {T : Table} {nw : ClsId → Except Exn Val} {pc : ParseCls} {q : QName}
    {a : List (QName × Str)} {t : Option Str} {k : List Xml} {i v : Val} {L : List Field}
    (h : parseChoice T nw pc (.elem q a t k) i L = .ok v) :
    (∃ g, FirstClaim L g (.elem q a t k) ∧ parseOne T nw pc g i (.elem q a t k) = .ok v) ∨
    ((∀ g ∈ L, ¬ g.Claims (.elem q a t k)) ∧ v = i) := by
  induction L with
  | nil => injection h with h; subst h; exact .inr ⟨by simp, rfl⟩
  | cons f fs ih =>
    simp only [parseChoice] at h
    split at h
    · next hm => exact .inl ⟨f, ⟨[], fs, rfl, claims_iff.2 hm, by simp⟩, h⟩
    · next hm =>
      have hf : ¬ f.Claims (.elem q a t k) := fun hc => hm (claims_iff.1 hc)
      rcases ih h with ⟨g, ⟨pre, post, he, hc, hp⟩, hg⟩ | ⟨hn, hv⟩
      · refine .inl ⟨g, ⟨f :: pre, post, by simp [he], hc, ?_⟩, hg⟩
        intro x hx
        rcases List.mem_cons.1 hx with rfl | hx
        · exact hf
        · exact hp x hx
      · refine .inr ⟨?_, hv⟩
        intro g hg
        rcases List.mem_cons.1 hg with rfl | hg
        · exact hf
        · exact hn g hg

theorem firstClaim_unique {L : List Field} {g g' : Field} {x : Xml} (h : FirstClaim L g x) (h' : FirstClaim L g' x) :
    g = g' := by
  obtain ⟨pre, post, he, hc, hp⟩ := h
  obtain ⟨pre', post', he', hc', hp'⟩ := h'
  have : pre ++ g :: post = pre' ++ g' :: post' := he.symm.trans he'
  rcases List.append_eq_append_iff.1 this with ⟨m, h1, h2⟩ | ⟨m, h1, h2⟩
  · cases m with
    | nil => simp at h2; exact h2.1
    | cons y ys =>
      have hy : y = g := by have := List.cons.inj h2; exact this.1.symm
      subst hy
      exact absurd hc (hp' y (by rw [h1]; simp))
  · cases m with
    | nil => simp at h2; exact h2.1.symm
    | cons y ys =>
      have hy : y = g' := by have := List.cons.inj h2; exact this.1.symm
      subst hy
      exact absurd hc' (hp y (by rw [h1]; simp))

/-- All that reading a Choice class does to its element fields. -/
theorem choice_elems {T : Table} {N n : Nat} {c : ClsId} (hn : NamesNodup (T c)) (hch : (T c).choice = true)
    {q : QName} {a : List (QName × Str)} {t : Option Str} {k : List Xml} {v : Val}
    (h : parseCls T N (n + 1) c (.elem q a t k) = .ok v) :
    ∃ es fs, newInst T N c = .ok (.inst c es none) ∧ v = .inst c fs (some (.elem q a t k)) ∧ Shaped (T c) fs ∧
      ∀ g ∈ (T c).elems, ∃ e, Dict.get? es g.name = some e ∧
        ((FirstClaim (T c).elems g (.elem q a t k) ∧
            ∃ w, oneVal T (newInst T N) (parseCls T N n) g e (.elem q a t k) = .ok w ∧ Dict.get? fs g.name = some w) ∨
          (¬ FirstClaim (T c).elems g (.elem q a t k) ∧ Dict.get? fs g.name = some e)) := by
  simp only [parseCls, bind_eq_ok] at h
  obtain ⟨i0, h0, i1, h1, i2, h2, h3⟩ := h
  obtain ⟨M, es, rfl, rfl, hs0, _⟩ := newInst_ok hn h0
  have hsubA : ∀ f ∈ (T c).attrs, f ∈ (T c).fields := fun f hf => (List.mem_filter.1 hf).1
  have hsubE : ∀ f ∈ (T c).elems, f ∈ (T c).fields := fun f hf => (List.mem_filter.1 hf).1
  have hsubG : ∀ f ∈ (T c).groups, f ∈ (T c).fields := fun f hf => (List.mem_filter.1 hf).1
  simp only [withXml] at h1
  obtain ⟨fs1, rfl, hs1, _, ho1⟩ := (foldE_fields (val := fun f _ => attrVal T (newInst T (M + 1)) f (.elem q a t k))
    (step := fun i f => parseAttr T (newInst T (M + 1)) f i (.elem q a t k)) hn (T c).attrs hsubA
    (nodup_filter_names hn _) (fun f hf fs hs => parseAttr_eq hn (hsubA f hf) hs _) hs0 i1).1 h1
  rw [if_pos hch] at h2
  have hAE : ∀ f ∈ (T c).attrs, ∀ g ∈ (T c).elems, f.name ≠ g.name := by
    intro f hf g hg he
    have := name_inj hn (hsubA f hf) (hsubE g hg) he
    subst this
    have h1 := (List.mem_filter.1 hf).2
    have h2 := (List.mem_filter.1 hg).2
    simp only [decide_eq_true_eq] at h1
    rw [h1] at h2; cases h2
  have hGE : ∀ f ∈ (T c).groups, ∀ g ∈ (T c).elems, f.name ≠ g.name := by
    intro f hf g hg he
    have := name_inj hn (hsubG f hf) (hsubE g hg) he
    subst this
    have h1 := (List.mem_filter.1 hf).2
    have h2 := (List.mem_filter.1 hg).2
    cases hk : f.kind <;> rw [hk] at h1 h2 <;> simp_all [Kind.isField, Kind.isGroup]
  have hmid : ∃ fs2, i2 = .inst c fs2 (some (.elem q a t k)) ∧ Shaped (T c) fs2 ∧
      ∀ g ∈ (T c).elems, ∃ e, Dict.get? fs1 g.name = some e ∧
        ((FirstClaim (T c).elems g (.elem q a t k) ∧
            ∃ w, oneVal T (newInst T (M+1)) (parseCls T (M+1) n) g e (.elem q a t k) = .ok w ∧
              Dict.get? fs2 g.name = some w) ∨
          (¬ FirstClaim (T c).elems g (.elem q a t k) ∧ Dict.get? fs2 g.name = some e)) := by
    rcases parseChoice_elem h2 with ⟨g, hg, hp⟩ | ⟨hno, rfl⟩
    · have hgm : g ∈ (T c).elems := by obtain ⟨pre, post, he, _⟩ := hg; rw [he]; simp
      rw [parseOne_eq hn (hsubE g hgm) hs1] at hp
      obtain ⟨cur, hcur⟩ := hs1.get (hsubE g hgm)
      simp only [putVal, hcur, bind_eq_ok] at hp
      obtain ⟨w, hw, hp⟩ := hp
      injection hp with hp; subst hp
      refine ⟨_, rfl, hs1.set (hsubE g hgm) w, ?_⟩
      intro g' hg'
      by_cases hgg : g'.name = g.name
      · have := name_inj hn (hsubE g' hg') (hsubE g hgm) hgg
        subst this
        exact ⟨cur, hcur, .inl ⟨hg, w, hw, get_set_self _ _ _⟩⟩
      · obtain ⟨e, he⟩ := hs1.get (hsubE g' hg')
        refine ⟨e, he, .inr ⟨fun h' => hgg (by rw [firstClaim_unique h' hg]), ?_⟩⟩
        rw [get_set_other _ _ _ _ hgg, he]
    · refine ⟨fs1, rfl, hs1, ?_⟩
      intro g hg
      obtain ⟨e, he⟩ := hs1.get (hsubE g hg)
      exact ⟨e, he, .inr ⟨fun ⟨_, _, _, hc, _⟩ => hno g hg hc, he⟩⟩
  obtain ⟨fs2, rfl, hs2, hE⟩ := hmid
  obtain ⟨fs3, rfl, hs3, _, ho3⟩ := (foldE_fields
    (val := fun f _ => elemVal T (newInst T (M + 1)) (parseCls T (M + 1) n) f (.elem q a t k))
    (step := fun i f => parseElement T (newInst T (M + 1)) (parseCls T (M + 1) n) f i (.elem q a t k)) hn (T c).groups
    hsubG (nodup_filter_names hn _) (fun f hf fs hs => parseElement_eq hn (hsubG f hf) hs _) hs2 v).1 h3
  refine ⟨es, fs3, h0, rfl, hs3, ?_⟩
  intro g hg
  obtain ⟨e, he, hE⟩ := hE g hg
  refine ⟨e, by rw [← he, ho1 g.name (fun f hf => hAE f hf g hg)], ?_⟩
  rw [ho3 g.name (fun f hf => hGE f hf g hg)]
  exact hE

/-- **C31 (the chosen field).** Of a Choice class, the first declared field whose name or tag name is the local name of
the element itself gets its value from that very element. -/
theorem C31_chosen_field (T : Table) (hT : T.Wf) (N n : Nat) (c : ClsId) (hch : (T c).choice = true)
    (q : QName) (a : List (QName × Str)) (t : Option Str) (k : List Xml) (v : Val)
    (hv : parseCls T N (n + 1) c (.elem q a t k) = .ok v) (g : Field) (hg : FirstClaim (T c).elems g (.elem q a t k)) :
    (g.kind ≠ .list → ∃ w, v.attr g.name = some w ∧ ReadAs T N n g (.elem q a t k) w) ∧
    (g.kind = .list → ∃ w, v.attr g.name = some (.list true [w]) ∧ ReadItem T N n g (.elem q a t k) w) := by
  have hgm : g ∈ (T c).elems := by obtain ⟨pre, post, he, _⟩ := hg; rw [he]; simp
  have hgf : g ∈ (T c).fields := (List.mem_filter.1 hgm).1
  obtain ⟨es, fs, h0, rfl, _, hall⟩ := choice_elems (hT c) hch hv
  obtain ⟨e, he, h⟩ := hall g hgm
  rcases h with ⟨_, w, hw, hgw⟩ | ⟨hno, _⟩
  · constructor
    · intro hk
      simp only [oneVal, if_neg hk] at hw
      exact ⟨w, hgw, elemVal_readAs hk hw⟩
    · intro hk
      rw [newInst_list (hT c) h0 hgf hk] at he
      injection he with he; subst he
      simp only [oneVal, if_pos hk] at hw
      obtain ⟨v', hr, rfl, _⟩ := itemVal_readItem rfl hw
      exact ⟨v', hgw, hr⟩
  · exact absurd hg hno

/-- **C31 (all other fields).** Every other element field keeps its empty value, whatever children the element has. -/
theorem C31_other_fields (T : Table) (hT : T.Wf) (N n : Nat) (c : ClsId) (hch : (T c).choice = true)
    (q : QName) (a : List (QName × Str)) (t : Option Str) (k : List Xml) (v : Val)
    (hv : parseCls T N (n + 1) c (.elem q a t k) = .ok v) (g : Field) (hgm : g ∈ (T c).elems)
    (hg : ¬ FirstClaim (T c).elems g (.elem q a t k)) : ∃ w, v.attr g.name = some w ∧ EmptyValue T g w := by
  have hgf : g ∈ (T c).fields := (List.mem_filter.1 hgm).1
  obtain ⟨es, fs, h0, rfl, _, hall⟩ := choice_elems (hT c) hch hv
  obtain ⟨e, he, h⟩ := hall g hgm
  rcases h with ⟨h, _⟩ | ⟨_, hgw⟩
  · exact absurd h hg
  · have hk := (List.mem_filter.1 hgm).2
    obtain ⟨w, h1, h2⟩ := newInst_empty (hT c) h0 hgf (by
      constructor <;> intro hh <;> rw [hh] at hk <;> cases hk)
    rw [h1] at he; injection he with he; subst he
    exact ⟨w, hgw, h2⟩

/-- `<right>5</right>` read as a Pick: `right` is 5, `left` stays None. -/
example : ∃ v, parseCls Ex.table 5 5 3 (Ex.leaf py"right" py"5") = .ok v ∧ v.attr py"right" = some (.atom (.int 5)) ∧
    v.attr py"left" = some Val.none := ⟨_, rfl, rfl, rfl⟩

/-! ### C33 -/

theorem itemOk_accept {T : Table} {f : Field} {v w : Val} (h : f.acceptItem T v = .ok w)
    (hv : ∀ c, f.type = .complex c → v = .nil ∨ HasType T (.complex c) v) : ItemOk T f w := by
  unfold Field.acceptItem at h
  split at h
  · split at h
    · next hn => injection h with h; subst h; exact .nil hn
    · cases h
  · next hnil =>
    cases ht : f.type with
    | any => rw [ht] at h; cases h
    | simple s =>
      rw [ht] at h
      simp only [FType.accept, map_eq_ok] at h
      obtain ⟨b, hb, rfl⟩ := h
      exact .val (by rw [ht]; exact .simple hb)
    | complex c =>
      rw [ht] at h
      simp only [FType.accept] at h
      rw [acceptCls_id h]
      rcases hv c ht with rfl | hv
      · exact absurd rfl hnil
      · exact .val (by rw [ht]; exact hv)

/-- An instance all of whose fields are well typed and whose lists are TypedLists. -/
def WT (T : Table) (i : Val) : Prop :=
  ∃ c fs x, i = .inst c fs x ∧ Shaped (T c) fs ∧
    ∀ f v, f ∈ (T c).fields → Dict.get? fs f.name = some v →
      FieldOk T f v ∧ (f.kind = .list → ∃ is, v = .list true is)

theorem WT.hasType {T : Table} (hT : T.Sane) {c : ClsId} {fs : List (Str × Val)} {x : Option Xml}
    (h : WT T (.inst c fs x)) : HasType T (.complex c) (.inst c fs x) := by
  obtain ⟨c', fs', x', he, hs, hf⟩ := h
  injection he with h1 h2 h3; subst h1 h2 h3
  exact .inst (hT.self c) hs fun f v h1 h2 => (hf f v h1 h2).1

theorem WT.set {T : Table} (hT : T.Sane) {c : ClsId} {fs : List (Str × Val)} {x : Option Xml}
    (h : WT T (.inst c fs x)) {f : Field} (hf : f ∈ (T c).fields) {w : Val} (hw : FieldOk T f w)
    (hl : f.kind = .list → ∃ is, w = .list true is) : WT T (.inst c (Dict.set fs f.name w) x) := by
  obtain ⟨c', fs', x', he, hs, hall⟩ := h
  injection he with h1 h2 h3; subst h1 h2 h3
  refine ⟨c, _, x, rfl, hs.set hf w, ?_⟩
  intro g v hg hv
  by_cases hn : g.name = f.name
  · have := name_inj (hT.names c) hg hf hn
    subst this
    rw [get_set_self] at hv
    injection hv with hv; subst hv; exact ⟨hw, hl⟩
  · rw [get_set_other _ _ _ _ hn] at hv
    exact hall g v hg hv

theorem WT.setAttr {T : Table} (hT : T.Sane) {nw : ClsId → Except Exn Val} {c : ClsId} {fs : List (Str × Val)}
    {x : Option Xml} (h : WT T (.inst c fs x)) {f : Field} (hf : f ∈ (T c).fields) (hk : f.kind ≠ .list) {v i' : Val}
    (hv : ∀ c, f.type = .complex c → v = .nil ∨ HasType T (.complex c) v)
    (hset : setAttr T nw (.inst c fs x) f.name v = .ok i') : ∃ fs', i' = .inst c fs' x ∧ WT T i' := by
  rw [setAttr_eq (hT.names c) hf, bind_eq_ok] at hset
  obtain ⟨w, hw, hset⟩ := hset
  injection hset with hset; subst hset
  simp only [Field.accept, if_neg hk, bind_eq_ok] at hw
  obtain ⟨_, _, hw⟩ := hw
  exact ⟨_, rfl, h.set hT hf (.single hk (itemOk_accept hw hv)) (fun h => absurd h hk)⟩

theorem newInst_wt {T : Table} (hT : T.Sane) : ∀ N c v, newInst T N c = .ok v →
    ∃ fs, v = .inst c fs none ∧ WT T v := by
  intro N
  induction N with
  | zero => intro c v h; cases h
  | succ N ih =>
    intro c v h
    obtain ⟨M, es, hM, rfl, hs, hall⟩ := newInst_ok (hT.names c) h
    injection hM with hM; subst hM
    refine ⟨es, rfl, c, es, none, rfl, hs, ?_⟩
    intro f v hf hv
    obtain ⟨e, w, h1, h2, h3⟩ := hall f hf
    rw [hv] at h3; injection h3 with h3; subst h3
    by_cases hk : f.kind = .list
    · simp only [emptyValue, hk] at h1
      injection h1 with h1; subst h1
      simp only [Field.accept, if_pos hk] at h2
      injection h2 with h2; subst h2
      exact ⟨.list hk (by simp) (by simp), fun _ => ⟨[], rfl⟩⟩
    · refine ⟨.single hk ?_, fun h => absurd h hk⟩
      simp only [Field.accept, if_neg hk, bind_eq_ok] at h2
      obtain ⟨_, _, h2⟩ := h2
      refine itemOk_accept h2 ?_
      intro c' ht
      have hd := hT.defaults c f c' hf ht
      unfold emptyValue at h1
      cases hkk : f.kind with
      | list => exact absurd hkk hk
      | content => rw [hkk] at h1; injection h1 with h1; subst h1; exact .inr .none
      | ref =>
        simp only [hkk, ht] at h1
        obtain ⟨fs, rfl, hwt⟩ := ih c' e h1
        exact .inr (hwt.hasType hT)
      | element => rw [hkk] at h1; injection h1 with h1; subst h1; exact hd
      | classNamed => rw [hkk] at h1; injection h1 with h1; subst h1; exact hd
      | «attribute» => rw [hkk] at h1; injection h1 with h1; subst h1; exact hd

theorem WT.parseElement {T : Table} (hT : T.Sane) {nw : ClsId → Except Exn Val} {pc : ParseCls}
    (hpc : ∀ c x v, pc c x = .ok v → HasType T (.complex c) v) {c : ClsId} {fs : List (Str × Val)}
    {x : Option Xml} (h : WT T (.inst c fs x)) {f : Field} (hf : f ∈ (T c).fields) (hk : f.kind ≠ .list) {y : Xml}
    {i' : Val} (hp : parseElement T nw pc f (.inst c fs x) y = .ok i') : ∃ fs', i' = .inst c fs' x ∧ WT T i' := by
  simp only [Soapfish.parseElement, bind_eq_ok] at hp
  obtain ⟨_, _, v, hv, hp⟩ := hp
  refine h.setAttr hT hf hk ?_ hp
  intro c' ht
  split at hv
  · injection hv with hv; exact .inl hv.symm
  · rw [ht] at hv; exact .inr (hpc c' y v hv)

theorem WT.parseItem {T : Table} (hT : T.Sane) {nw : ClsId → Except Exn Val} {pc : ParseCls}
    (hpc : ∀ c x v, pc c x = .ok v → HasType T (.complex c) v) {c : ClsId} {fs : List (Str × Val)}
    {x : Option Xml} (h : WT T (.inst c fs x)) {f : Field} (hf : f ∈ (T c).fields) (hk : f.kind = .list) {y : Xml}
    {i' : Val} (hp : parseItem T nw pc f (.inst c fs x) y = .ok i') : ∃ fs', i' = .inst c fs' x ∧ WT T i' := by
  simp only [Soapfish.parseItem, bind_eq_ok] at hp
  obtain ⟨_, _, v, hv, hp⟩ := hp
  obtain ⟨c', fs', x', he, hs, hall⟩ := id h
  injection he with h1 h2 h3; subst h1 h2 h3
  obtain ⟨cur, hcur⟩ := hs.get hf
  obtain ⟨hok, hty⟩ := hall f cur hf hcur
  obtain ⟨is, rfl⟩ := hty hk
  simp only [appendAttr, hcur, bind_eq_ok, typedAppend] at hp
  obtain ⟨is', ⟨_, _, w, hw, _, hm, hi⟩, hp⟩ := hp
  injection hi with hi; subst hi
  injection hp with hp; subst hp
  refine ⟨_, rfl, h.set hT hf ?_ (fun _ => ⟨_, rfl⟩)⟩
  cases hok with
  | single hk' _ => exact absurd hk hk'
  | list _ hall hmax =>
    refine .list hk ?_ ?_
    · intro u hu
      rcases List.mem_append.1 hu with hu | hu
      · exact hall u hu
      · rw [List.mem_singleton.1 hu]
        refine itemOk_accept hw ?_
        intro c' ht
        split at hv
        · injection hv with hv; exact .inl hv.symm
        · rw [ht] at hv; exact .inr (hpc c' y v hv)
    · intro m hmm _
      rw [hmm] at hm
      simp only [ifGiven, raiseIf_eq_ok, Bound.exceeded, decide_eq_false_iff_not] at hm
      simp only [List.length_append, List.length_cons, List.length_nil]
      omega

theorem foldE_wt {α : Type} {T : Table} {c : ClsId} {x : Option Xml} {step : Val → α → Except Exn Val} (L : List α)
    (hstep : ∀ a ∈ L, ∀ fs i', WT T (.inst c fs x) → step (.inst c fs x) a = .ok i' → ∃ fs', i' = .inst c fs' x ∧ WT T i') :
    ∀ fs i', WT T (.inst c fs x) → foldE step (.inst c fs x) L = .ok i' → ∃ fs', i' = .inst c fs' x ∧ WT T i' := by
  induction L with
  | nil => intro fs i' h hf; injection hf with hf; subst hf; exact ⟨fs, rfl, h⟩
  | cons a as ih =>
    intro fs i' h hf
    simp only [foldE, bind_eq_ok] at hf
    obtain ⟨s, h1, h2⟩ := hf
    obtain ⟨fs', rfl, hw⟩ := hstep a (by simp) fs s h h1
    exact ih (fun b hb => hstep b (by simp [hb])) fs' i' hw h2

theorem WT.parseOne {T : Table} (hT : T.Sane) {nw : ClsId → Except Exn Val} {pc : ParseCls}
    (hpc : ∀ c x v, pc c x = .ok v → HasType T (.complex c) v) {c : ClsId} {fs : List (Str × Val)}
    {x : Option Xml} (h : WT T (.inst c fs x)) {f : Field} (hf : f ∈ (T c).fields) {y : Xml}
    {i' : Val} (hp : parseOne T nw pc f (.inst c fs x) y = .ok i') : ∃ fs', i' = .inst c fs' x ∧ WT T i' := by
  unfold Soapfish.parseOne at hp
  split at hp
  · next hk => exact h.parseItem hT hpc hf hk hp
  · next hk => exact h.parseElement hT hpc hf hk hp

/-- **C33.** Whatever the document, reading it as a class fails or gives an instance of exactly that class in which
every field - recursively - holds values of its declared type, NIL only where allowed, and lists of at most
`maxOccurs` items. -/
theorem C33_parsed_values_are_well_typed (T : Table) (hT : T.Sane) (N n : Nat) :
    ∀ (c : ClsId) (x : Xml) (v : Val), parseCls T N n c x = .ok v →
      HasType T (.complex c) v ∧ ∃ fs, v = .inst c fs (some x) := by
  induction n with
  | zero => intro c x v h; cases h
  | succ n ih =>
    intro c x v h
    have hpc : ∀ c x v, parseCls T N n c x = .ok v → HasType T (.complex c) v := fun c x v h => (ih c x v h).1
    simp only [parseCls, bind_eq_ok] at h
    obtain ⟨i0, h0, i1, h1, i2, h2, h3⟩ := h
    obtain ⟨fs0, rfl, hw0⟩ := newInst_wt hT N c i0 h0
    have hw0' : WT T (.inst c fs0 (some x)) := by
      obtain ⟨c', fs', x', he, hr⟩ := hw0
      injection he with e1 e2 e3; subst e1 e2
      exact ⟨c, fs0, some x, rfl, hr⟩
    obtain ⟨fs1, rfl, hw1⟩ := foldE_wt (T c).attrs (by
      intro f hf fs i' hw hp
      obtain ⟨hff, hk⟩ := List.mem_filter.1 hf
      simp only [decide_eq_true_eq] at hk
      simp only [parseAttr, bind_eq_ok] at hp
      obtain ⟨_, _, b, hb, hp⟩ := hp
      refine hw.setAttr hT hff (by simp [hk]) ?_ hp
      intro c' ht
      simp only [attrValue, ht] at hb
      cases hb) fs0 i1 hw0' h1
    have hmid : ∃ fs2, i2 = .inst c fs2 (some x) ∧ WT T i2 := by
      have hsub : ∀ f ∈ (T c).elems, f ∈ (T c).fields := fun f hf => (List.mem_filter.1 hf).1
      split at h2
      · revert hsub h2
        generalize (T c).elems = L
        intro hsub h2
        induction L with
        | nil => injection h2 with h2; subst h2; exact ⟨fs1, rfl, hw1⟩
        | cons f fs ihL =>
          cases x with
          | comment => exact ihL (fun g hg => hsub g (by simp [hg])) h2
          | pi => cases h2
          | elem q a t k =>
            simp only [parseChoice] at h2
            split at h2
            · exact hw1.parseOne hT hpc (hsub f (by simp)) h2
            · exact ihL (fun g hg => hsub g (by simp [hg])) h2
      · refine foldE_wt (T c).elems ?_ fs1 i2 hw1 h2
        intro f hf fs i' hw hp
        simp only [parseSeq, bind_eq_ok] at hp
        obtain ⟨subs, _, hp⟩ := hp
        exact foldE_wt subs (fun y _ fs i' hw hp => hw.parseOne hT hpc (hsub f hf) hp) fs i' hw hp
    obtain ⟨fs2, rfl, hw2⟩ := hmid
    obtain ⟨fs3, rfl, hw3⟩ := foldE_wt (T c).groups (by
      intro f hf fs i' hw hp
      obtain ⟨hff, hk⟩ := List.mem_filter.1 hf
      exact hw.parseElement hT hpc hff (by intro hh; rw [hh] at hk; cases hk) hp) fs2 v hw2 h3
    exact ⟨hw3.hasType hT, fs3, rfl⟩

/-- The example document gives a well-typed person; four tags are too many. -/
example : ∃ v, parseCls Ex.table 5 5 0 Ex.doc = .ok v ∧ HasType Ex.table (.complex 0) v := by
  obtain ⟨v, hv⟩ := Ex.doc_parses
  exact ⟨v, hv, (C33_parsed_values_are_well_typed _ Ex.table_sane 5 5 0 _ v hv).1⟩

example : parseCls Ex.table 5 5 0 (.elem ⟨none, py"person"⟩ [(⟨none, py"id"⟩, py"7")] none
    (List.replicate 4 (Ex.leaf py"tag" py"a"))) = .error .valueError := rfl

end Soapfish
