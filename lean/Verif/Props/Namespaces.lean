import Verif.Spec.Namespaces
import Verif.Props.Names
import Verif.Props.Action
/-
C97: which names in a document are taken for types of XML Schema.
-/
namespace Soapfish

/-! ### Scopes -/

/-- The scope a dictionary stands for. -/
def NsMap.scope (m : NsMap) : Scope := fun p => m.get p

theorem NsMap.get_append (a b : NsMap) (p : Option Str) : NsMap.get (a ++ b) p = (NsMap.get a p).or (NsMap.get b p) := by
  unfold NsMap.get
  rw [List.find?_append]
  cases List.find? (fun e : Option Str × Str => decide (e.1 = p)) a <;> rfl

theorem NsMap.get_none {m : NsMap} {p : Option Str} (h : ∀ u, (p, u) ∉ m) : m.get p = none := by
  unfold NsMap.get
  rw [Option.map_eq_none_iff, List.find?_eq_none]
  rintro ⟨q, u⟩ hm he
  exact h u (by rw [← of_decide_eq_true he]; exact hm)

theorem NsMap.get_mem {m : NsMap} {p : Option Str} {u : Str} (h : m.get p = some u) : (p, u) ∈ m := by
  unfold NsMap.get at h
  obtain ⟨⟨q, v⟩, hf, rfl⟩ := Option.map_eq_some_iff.1 h
  have := List.mem_of_find?_eq_some hf
  have hq : q = p := by simpa using List.find?_some hf
  rw [← hq]; exact this

theorem NsMap.get_nodup {m : NsMap} (hn : (m.map (·.1)).Nodup) {p : Option Str} {u : Str} (h : (p, u) ∈ m) : m.get p = some u := by
  cases hg : m.get p with
  | none =>
    unfold NsMap.get at hg
    rw [Option.map_eq_none_iff, List.find?_eq_none] at hg
    exact absurd (decide_eq_true rfl) (hg _ h)
  | some v =>
    have hv := NsMap.get_mem hg
    induction m with
    | nil => cases h
    | cons e m ih =>
      rw [List.map_cons, List.nodup_cons] at hn
      rcases List.mem_cons.1 h with rfl | h1
      · rcases List.mem_cons.1 hv with hv1 | hv1
        · injection hv1 with _ hv1; rw [hv1]
        · exact absurd (List.mem_map.2 ⟨_, hv1, rfl⟩) hn.1
      · rcases List.mem_cons.1 hv with rfl | hv1
        · exact absurd (List.mem_map.2 ⟨_, h1, rfl⟩) hn.1
        · refine ih hn.2 h1 ?_ hv1
          unfold NsMap.get at hg ⊢
          rw [List.find?_cons] at hg
          split at hg
          · rename_i he
            exact absurd (List.mem_map.2 ⟨_, hv1, rfl⟩) (by rw [← of_decide_eq_true he]; exact hn.1)
          · exact hg

/-- There is one scope that declarations lead to. -/
theorem binds_iff {outer decls : NsMap} (hn : (decls.map (·.1)).Nodup) {s : Scope} :
    (∀ p, Binds outer.scope decls p (s p)) ↔ s = NsMap.scope (decls ++ outer) := by
  constructor
  · intro h
    funext p
    show s p = NsMap.get (decls ++ outer) p
    rw [NsMap.get_append]
    have hd := h p
    generalize s p = v at hd
    cases hd with
    | here hm => rw [NsMap.get_nodup hn hm]; rfl
    | outer ho => rw [NsMap.get_none ho]; rfl
  · rintro rfl p
    show Binds _ _ _ (NsMap.get (decls ++ outer) p)
    rw [NsMap.get_append]
    cases hg : NsMap.get decls p with
    | some u => exact .here (NsMap.get_mem hg)
    | none =>
      refine .outer fun u hu => ?_
      rw [NsMap.get_nodup hn hu] at hg
      cases hg

mutual
theorem schemaMaps_iff (outer : NsMap) (s : Scope) : ∀ (t : NsTree), WellDeclared t →
    (Inside outer.scope t py"schema" s ↔ ∃ m ∈ schemaMaps outer t, s = m.scope)
  | .node name decls kids, hw => by
    cases hw with
    | node hn hk =>
      have ih := schemaMapsAll_iff (decls ++ outer) s kids hk
      unfold schemaMaps
      constructor
      · intro h
        cases h with
        | self hs =>
          rw [if_pos rfl]
          exact ⟨_, List.mem_cons_self, (binds_iff hn).1 hs⟩
        | child hs hkid hin =>
          rw [(binds_iff hn).1 hs] at hin
          obtain ⟨m, hm, he⟩ := ih.1 ⟨_, hkid, hin⟩
          exact ⟨m, List.mem_append_right _ hm, he⟩
      · rintro ⟨m, hm, rfl⟩
        rcases List.mem_append.1 hm with h | h
        · split at h
          · rename_i hname
            rw [List.mem_singleton.1 h, hname]
            exact .self ((binds_iff hn).2 rfl)
          · cases h
        · obtain ⟨k, hkm, hin⟩ := ih.2 ⟨m, h, rfl⟩
          exact .child ((binds_iff hn).2 rfl) hkm hin
theorem schemaMapsAll_iff (outer : NsMap) (s : Scope) : ∀ (ts : List NsTree), (∀ k ∈ ts, WellDeclared k) →
    ((∃ k ∈ ts, Inside outer.scope k py"schema" s) ↔ ∃ m ∈ schemaMapsAll outer ts, s = m.scope)
  | [], _ => by
    unfold schemaMapsAll
    constructor <;> rintro ⟨_, h, _⟩ <;> cases h
  | t :: ts, hw => by
    have h1 := schemaMaps_iff outer s t (hw t List.mem_cons_self)
    have h2 := schemaMapsAll_iff outer s ts fun k hk => hw k (List.mem_cons_of_mem _ hk)
    unfold schemaMapsAll
    constructor
    · rintro ⟨k, hk, hin⟩
      rcases List.mem_cons.1 hk with rfl | hk
      · obtain ⟨m, hm, he⟩ := h1.1 hin
        exact ⟨m, List.mem_append_left _ hm, he⟩
      · obtain ⟨m, hm, he⟩ := h2.1 ⟨k, hk, hin⟩
        exact ⟨m, List.mem_append_right _ hm, he⟩
    · rintro ⟨m, hm, he⟩
      rcases List.mem_append.1 hm with h | h
      · exact ⟨t, List.mem_cons_self, h1.2 ⟨m, h, he⟩⟩
      · obtain ⟨k, hk, hin⟩ := h2.2 ⟨m, h, he⟩
        exact ⟨k, List.mem_cons_of_mem _ hk, hin⟩
end

/-- The dictionaries that are put together. -/
def topMaps : NsTree → List NsMap
  | .node name decls kids => decls :: schemaMaps [] (.node name decls kids)

theorem topScope_iff {t : NsTree} (hw : WellDeclared t) {s : Scope} : TopScope t s ↔ ∃ m ∈ topMaps t, s = m.scope := by
  cases t with
  | node name decls kids =>
    have h1 := schemaMaps_iff [] s (.node name decls kids) hw
    cases hw with
    | node hn hk =>
      have h2 := binds_iff (outer := []) (s := s) hn
      rw [List.append_nil] at h2
      unfold TopScope topMaps
      constructor
      · rintro (h | h)
        · exact ⟨decls, List.mem_cons_self, h2.1 h⟩
        · obtain ⟨m, hm, he⟩ := h1.1 h
          exact ⟨m, List.mem_cons_of_mem _ hm, he⟩
      · rintro ⟨m, hm, he⟩
        rcases List.mem_cons.1 hm with rfl | hm
        · exact .inl (h2.2 he)
        · exact .inr (h1.2 ⟨m, hm, he⟩)

theorem foldl_get (l : List NsMap) : ∀ (m : NsMap) (p : Option Str) (u : Str),
    (NsMap.get (l.foldl (fun m x => x ++ m) m) p = some u → m.get p = some u ∨ ∃ x ∈ l, x.get p = some u) ∧
    ((m.get p).isSome ∨ (∃ x ∈ l, (x.get p).isSome) → (NsMap.get (l.foldl (fun m x => x ++ m) m) p).isSome) := by
  induction l with
  | nil =>
    intro m p u
    refine ⟨.inl, ?_⟩
    rintro (h | ⟨x, hx, _⟩)
    · exact h
    · cases hx
  | cons x l ih =>
    intro m p u
    obtain ⟨h1, h2⟩ := ih (x ++ m) p u
    refine ⟨fun h => ?_, fun h => ?_⟩
    · rcases h1 h with h | ⟨y, hy, h⟩
      · rw [NsMap.get_append] at h
        cases hx : NsMap.get x p with
        | none => rw [hx] at h; exact .inl h
        | some v => rw [hx] at h; exact .inr ⟨x, List.mem_cons_self, by rw [hx]; exact h⟩
      · exact .inr ⟨y, List.mem_cons_of_mem _ hy, h⟩
    · apply h2
      rw [NsMap.get_append]
      rcases h with h | ⟨y, hy, h⟩
      · left
        cases NsMap.get x p with
        | none => exact h
        | some v => rfl
      · rcases List.mem_cons.1 hy with rfl | hy
        · left
          cases hg : NsMap.get y p with
          | none => rw [hg] at h; cases h
          | some v => rfl
        · exact .inr ⟨y, hy, h⟩

theorem mergedMap_get {t : NsTree} {p : Option Str} {u : Str} (h : (mergedMap t).get p = some u) : ∃ m ∈ topMaps t, m.get p = some u := by
  cases t with
  | node name decls kids =>
    rcases (foldl_get _ _ _ _).1 h with h | ⟨x, hx, h⟩
    · exact ⟨decls, List.mem_cons_self, h⟩
    · exact ⟨x, List.mem_cons_of_mem _ hx, h⟩

theorem mergedMap_some {t : NsTree} {p : Option Str} {m : NsMap} (hm : m ∈ topMaps t) (h : (m.get p).isSome) :
    ((mergedMap t).get p).isSome := by
  cases t with
  | node name decls kids =>
    refine (foldl_get _ decls p []).2 ?_
    rcases List.mem_cons.1 hm with rfl | hm
    · exact .inl h
    · exact .inr ⟨m, hm, h⟩

theorem isXsdUri_iff {u : Str} : IsXsdUri (some u) ↔ u ∈ xsdUris := by
  unfold IsXsdUri xsdUris
  simp

theorem findXsd_iff {t : NsTree} {p : Option Str} : p ∈ findXsdNamespaces t ↔ IsXsdUri ((mergedMap t).get p) := by
  unfold findXsdNamespaces
  rw [List.mem_filter]
  cases hg : (mergedMap t).get p with
  | none => simp [IsXsdUri]
  | some u =>
    rw [isXsdUri_iff]
    constructor
    · rintro ⟨_, h⟩; exact of_decide_eq_true h
    · intro h; exact ⟨List.mem_map.2 ⟨_, NsMap.get_mem hg, rfl⟩, decide_eq_true h⟩

/-! ### The set of prefixes -/

/-- **C97 (not invented).** A prefix is only taken for XML Schema if it stands for it at the root or at a `schema` element
of one of the documents. -/
theorem C97_sound {docs : List NsTree} (hw : ∀ t ∈ docs, WellDeclared t) {p : Option Str} (h : p ∈ collectXsdNamespaces docs) :
    ∃ t ∈ docs, ∃ s, TopScope t s ∧ IsXsdUri (s p) := by
  obtain ⟨t, ht, hp⟩ := List.mem_flatMap.1 h
  have hx := findXsd_iff.1 hp
  cases hg : (mergedMap t).get p with
  | none => rw [hg] at hx; simp [IsXsdUri] at hx
  | some u =>
    rw [hg] at hx
    obtain ⟨m, hm, hmp⟩ := mergedMap_get hg
    refine ⟨t, ht, m.scope, (topScope_iff (hw t ht)).2 ⟨m, hm, rfl⟩, ?_⟩
    show IsXsdUri (m.get p)
    rw [hmp]; exact hx

/-- **C97 (the set).** If a prefix stands for the same wherever it is declared at the root or a `schema` element of any of the
documents, then it is taken for XML Schema exactly if that is what it stands for there. -/
theorem C97_exact {docs : List NsTree} (hw : ∀ t ∈ docs, WellDeclared t) {p : Option Str} {u : Str}
    (agree : ∀ t ∈ docs, ∀ s, TopScope t s → s p = none ∨ s p = some u) :
    p ∈ collectXsdNamespaces docs ↔ IsXsdUri (some u) ∧ ∃ t ∈ docs, ∃ s, TopScope t s ∧ s p = some u := by
  constructor
  · intro h
    obtain ⟨t, ht, s, hs, hx⟩ := C97_sound hw h
    rcases agree t ht s hs with h | h
    · rw [h] at hx; simp [IsXsdUri] at hx
    · rw [h] at hx; exact ⟨hx, t, ht, s, hs, h⟩
  · rintro ⟨hx, t, ht, s, hs, hsp⟩
    refine List.mem_flatMap.2 ⟨t, ht, findXsd_iff.2 ?_⟩
    obtain ⟨m, hm, rfl⟩ := (topScope_iff (hw t ht)).1 hs
    have := mergedMap_some hm (p := p) (by rw [show m.get p = some u from hsp]; rfl)
    cases hg : (mergedMap t).get p with
    | none => rw [hg] at this; cases this
    | some v =>
      obtain ⟨m', hm', hmp⟩ := mergedMap_get hg
      rcases agree t ht m'.scope ((topScope_iff (hw t ht)).2 ⟨m', hm', rfl⟩) with h | h
      · rw [show m'.scope p = some v from hmp] at h; cases h
      · rw [show m'.scope p = some v from hmp] at h
        rw [h]; exact hx

/-! ### Names of types -/

theorem getType_qname (X : List (Option Str)) (K : Option (List Str)) (p : Option Str) (c : Char) (cs : Str)
    (hp : ∀ q, p = some q → ':' ∉ q) (hn : ':' ∉ c :: cs) :
    getType X K (.text (qnameText p (c :: cs))) = .ok (typeCode X K p (upperC c :: cs)) := by
  cases p with
  | none =>
    have hs : splitQName (c :: cs) = .ok (none, c :: cs) := by
      unfold splitQName
      rw [splitOn_none hn]
    unfold qnameText getType
    simp only [TypeSource.qname, hs, capitalize, bind, Except.bind]
  | some p =>
    have hp := hp p rfl
    obtain ⟨a, b, hab⟩ : ∃ a b, p ++ ':' :: c :: cs = a :: b := by cases p <;> simp
    have hq : TypeSource.qname (.text (p ++ ':' :: c :: cs)) = .ok (p ++ ':' :: c :: cs) := by rw [hab]; rfl
    have hs : splitQName (p ++ ':' :: c :: cs) = .ok (some p, c :: cs) := by
      unfold splitQName
      rw [splitOn_colon hp, splitOn_none hn]
    unfold qnameText getType
    simp only [hq, hs, capitalize, bind, Except.bind]

theorem upperC_not_x (c : Char) : upperC c ≠ 'x' :=
  fun h => upperC_ge c (by rw [h]; decide) (by rw [h]; decide)

theorem typeCode_xsd (X : List (Option Str)) (K : Option (List Str)) (p : Option Str) (c : Char) (cs : Str) :
    (∃ name, typeCode X K p (upperC c :: cs) = py"xsd." ++ name) ↔ p ∈ X := by
  unfold typeCode
  split
  · rename_i h
    exact ⟨fun _ => h, fun _ => ⟨_, rfl⟩⟩
  · rename_i h
    refine ⟨?_, fun h' => absurd h' h⟩
    rintro ⟨name, hn⟩
    split at hn
    · exact absurd (List.cons.inj hn).1 (upperC_not_x c)
    · exact absurd (List.cons.inj hn).1 (by decide)

theorem takenRightly_iff {X : List (Option Str)} {K : Option (List Str)} {s : Scope} {p : Option Str} {c : Char} {cs : Str}
    (hp : ∀ q, p = some q → ':' ∉ q) (hn : ':' ∉ c :: cs) :
    TakenRightly X K s p (c :: cs) ↔ (p ∈ X ↔ IsXsdUri (s p)) := by
  unfold TakenRightly
  rw [getType_qname X K p c cs hp hn, ← typeCode_xsd X K p c cs]
  simp only [Except.ok.injEq]

/-- **C97 (types).** A name at some place of the documents is taken for a type of XML Schema exactly if it is one there,
provided that its prefix, wherever it is declared at the root or a `schema` element, stands for what it stands for at that
place, and is declared there at all if it stands for XML Schema. -/
theorem C97_types {docs : List NsTree} (hw : ∀ t ∈ docs, WellDeclared t) (known : Option (List Str)) {s : Scope} {p : Option Str}
    (hp : ∀ q, p = some q → ':' ∉ q) {l : Str} (hl : l ≠ []) (hc : ':' ∉ l)
    (agree : ∀ t ∈ docs, ∀ s', TopScope t s' → s' p = none ∨ s' p = s p)
    (declared : IsXsdUri (s p) → ∃ t ∈ docs, ∃ s', TopScope t s' ∧ s' p = s p) :
    TakenRightly (collectXsdNamespaces docs) known s p l := by
  cases l with
  | nil => exact absurd rfl hl
  | cons c cs =>
    rw [takenRightly_iff hp hc]
    cases hs : s p with
    | none =>
      constructor
      · intro h
        obtain ⟨t, ht, s', hs', hx⟩ := C97_sound hw h
        rcases agree t ht s' hs' with h | h
        · rw [h] at hx; exact hx
        · rw [h, hs] at hx; exact hx
      · intro h; simp [IsXsdUri] at h
    | some u =>
      rw [C97_exact hw (u := u) (fun t ht s' hs' => hs ▸ agree t ht s' hs')]
      constructor
      · exact fun h => h.1
      · intro hx
        refine ⟨hx, ?_⟩
        obtain ⟨t, ht, s', hs', h⟩ := declared (by rw [hs]; exact hx)
        exact ⟨t, ht, s', hs', by rw [h, hs]⟩

/-- **C97 (conflicts).** If a prefix stands for XML Schema at one place and for something else at another one, then names
with it are not taken rightly at both, whatever set of prefixes is used; and this is so for all names. -/
theorem C97_conflict (prefixes : List (Option Str)) (known known' : Option (List Str)) {s s' : Scope} {p : Option Str}
    (hp : ∀ q, p = some q → ':' ∉ q) {l l' : Str} (hl : l ≠ []) (hc : ':' ∉ l) (hl' : l' ≠ []) (hc' : ':' ∉ l')
    (h : IsXsdUri (s p)) (h' : ¬ IsXsdUri (s' p)) :
    ¬ (TakenRightly prefixes known s p l ∧ TakenRightly prefixes known' s' p l') := by
  rintro ⟨h1, h2⟩
  cases l with
  | nil => exact hl rfl
  | cons c cs =>
    cases l' with
    | nil => exact hl' rfl
    | cons c' cs' =>
      rw [takenRightly_iff hp hc] at h1
      rw [takenRightly_iff hp hc'] at h2
      exact h' (h2.1 (h1.2 h))

/-- **C97 (declared further inside).** If a prefix is declared neither at the root nor at any `schema` element, then no name
with it is taken for a type of XML Schema, whatever it stands for. -/
theorem C97_inner {docs : List NsTree} (hw : ∀ t ∈ docs, WellDeclared t) (known : Option (List Str)) {s : Scope} {p : Option Str}
    (hp : ∀ q, p = some q → ':' ∉ q) {l : Str} (hl : l ≠ []) (hc : ':' ∉ l)
    (undeclared : ∀ t ∈ docs, ∀ s', TopScope t s' → s' p = none) (h : IsXsdUri (s p)) :
    ¬ TakenRightly (collectXsdNamespaces docs) known s p l := by
  cases l with
  | nil => exact absurd rfl hl
  | cons c cs =>
    rw [takenRightly_iff hp hc]
    intro h'
    obtain ⟨t, ht, s', hs', hx⟩ := C97_sound hw (h'.2 h)
    rw [undeclared t ht s' hs'] at hx
    simp [IsXsdUri] at hx

/-! ### Examples -/

namespace Ex

def xsdUri : Str := py"http://www.w3.org/2001/XMLSchema"

/-- A WSDL document with two schemas.  One has XML Schema as its default namespace, the other its own target namespace. -/
def twoSchemas : NsTree :=
  .node py"definitions" [(some py"wsdl", py"http://schemas.xmlsoap.org/wsdl/")]
    [.node py"types" []
      [.node py"schema" [(none, xsdUri), (some py"a", py"urn:a")] [.node py"element" [] []],
       .node py"schema" [(none, py"urn:b"), (some py"xs", xsdUri)] [.node py"element" [] []]]]

/-- A type of XML Schema in the first schema is taken for one of the module's own; the prefixes that are used in one way are
taken rightly. -/
example : getType (collectXsdNamespaces [twoSchemas]) none (.text py"string") = .ok py"__name__ + '.String'" ∧
    getType (collectXsdNamespaces [twoSchemas]) none (.text py"xs:string") = .ok py"xsd.String" ∧
    getType (collectXsdNamespaces [twoSchemas]) none (.text py"a:string") = .ok py"__name__ + '.String'" := by
  refine ⟨?_, ?_, ?_⟩ <;> rfl

theorem wellDeclared_one {name : Str} {decls : NsMap} {k : NsTree} (h : (decls.map (·.1)).Nodup) (hk : WellDeclared k) :
    WellDeclared (.node name decls [k]) := .node h fun k' hk' => by rw [List.mem_singleton.1 hk']; exact hk

theorem twoSchemas_well : WellDeclared twoSchemas := by
  have e : WellDeclared (.node py"element" [] []) := .node (by decide) (by intro k hk; cases hk)
  refine wellDeclared_one (by decide) (.node (by decide) fun k hk => ?_)
  rcases List.mem_cons.1 hk with rfl | hk
  · exact wellDeclared_one (by decide) e
  · rw [List.mem_singleton.1 hk]
    exact wellDeclared_one (by decide) e

/-- The theorem applies to the prefix `xs` in this document, at the element in the second schema. -/
example : Inside (fun _ => none) twoSchemas py"element" (NsMap.scope [(none, py"urn:b"), (some py"xs", xsdUri), (some py"wsdl", py"http://schemas.xmlsoap.org/wsdl/")]) ∧
    TakenRightly (collectXsdNamespaces [twoSchemas]) none
      (NsMap.scope [(none, py"urn:b"), (some py"xs", xsdUri), (some py"wsdl", py"http://schemas.xmlsoap.org/wsdl/")]) (some py"xs") py"string" := by
  constructor
  · refine .child (fun p => (binds_iff (outer := []) (by decide)).2 rfl p) List.mem_cons_self
      (.child (fun p => (binds_iff (by decide)).2 rfl p) (List.mem_cons_of_mem _ List.mem_cons_self)
        (.child (fun p => (binds_iff (by decide)).2 rfl p) List.mem_cons_self (.self fun p => (binds_iff (by decide)).2 rfl p)))
  · refine C97_types (by rintro t ht; rw [List.mem_singleton.1 ht]; exact twoSchemas_well) none (by rintro q h; injection h with h; subst h; decide)
      (by decide) (by decide) ?_ ?_
    · intro t ht s hs
      rw [List.mem_singleton.1 ht, topScope_iff twoSchemas_well] at hs
      obtain ⟨m, hm, rfl⟩ := hs
      simp only [topMaps, twoSchemas, schemaMaps, schemaMapsAll] at hm
      revert m
      decide
    · intro _
      refine ⟨_, List.mem_singleton.2 rfl, NsMap.scope [(none, py"urn:b"), (some py"xs", xsdUri), (some py"wsdl", py"http://schemas.xmlsoap.org/wsdl/")], (topScope_iff twoSchemas_well).2 ⟨_, ?_, rfl⟩, rfl⟩
      decide

/-- With the schemas the other way round, the type `string` of the namespace `urn:b` is taken for the one of XML Schema. -/
def otherOrder : NsTree :=
  .node py"definitions" [] [.node py"schema" [(none, py"urn:b")] [], .node py"schema" [(none, xsdUri)] []]

example : getType (collectXsdNamespaces [otherOrder]) none (.text py"string") = .ok py"xsd.String" := rfl

/-- A document that imports another one where `s` stands for XML Schema: its own `s` is taken for it, too. -/
example : getType (collectXsdNamespaces [.node py"definitions" [(some py"s", py"urn:shop")] [],
    .node py"definitions" [(some py"s", xsdUri)] []]) none (.text py"s:token") = .ok py"xsd.Token" := rfl

/-- A prefix that is declared at the element that uses it. -/
example : getType (collectXsdNamespaces [.node py"schema" [] [.node py"element" [(some py"xs", xsdUri)] []]]) none (.text py"xs:string") =
    .ok py"__name__ + '.String'" := rfl

end Ex

end Soapfish
