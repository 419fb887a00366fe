import Verif.WsdlLemmas
import Verif.Props.RoundTrip
/-
Descriptions of schemas and services survive being written and read back.
-/
set_option maxRecDepth 4000
namespace Soapfish

/-! ### The class table -/

/-- No group, and no default object. -/
def plainField (f : Field) : Bool :=
  decide (f.kind ≠ .ref) && match f.type, f.default with
    | .complex _, .atom .none => true
    | .simple _, _ => true
    | _, _ => false

theorem spec_induct (v : Version) (P : ClsId → Cls → Prop)
    (h : ∀ c, c < 38 → P c (specTable v c)) (h' : ∀ c, 38 ≤ c → P c { name := [], mro := [c], fields := [] }) :
    ∀ c, P c (specTable v c) := by
  intro c
  by_cases hc : c < 38
  · exact h c hc
  · have hc : 38 ≤ c := Nat.le_of_not_lt hc
    have : specTable v c = { name := [], mro := [c], fields := [] } := by
      obtain ⟨k, rfl⟩ := Nat.exists_eq_add_of_le' hc
      rfl
    rw [this]; exact h' c hc

/-- What is needed of a class of the table. -/
def PlainCls (c : ClsId) (k : Cls) : Prop :=
  k.mro = [c] ∧ k.choice = false ∧ k.header = false ∧ (∀ f ∈ k.fields, plainField f = true) ∧
  (k.fields.map (·.name)).Nodup ∧ k.fields.Pairwise fun f g => ¬ Clash f g

/-- `Clash` as a test. -/
def plainPair (f g : Field) : Bool := decide (¬ Clash f g)

def plainCls (c : ClsId) (k : Cls) : Bool :=
  decide (k.mro = [c]) && decide (k.choice = false) && decide (k.header = false) && k.fields.all plainField &&
  decide (k.fields.map (·.name)).Nodup && decide (k.fields.Pairwise fun f g => plainPair f g = true)

theorem plainCls_iff {c : ClsId} {k : Cls} (h : plainCls c k = true) : PlainCls c k := by
  unfold plainCls at h
  simp only [Bool.and_eq_true, decide_eq_true_eq, List.all_eq_true] at h
  obtain ⟨⟨⟨⟨⟨h1, h2⟩, h3⟩, h4⟩, h5⟩, h6⟩ := h
  exact ⟨h1, h2, h3, h4, h5, h6.imp fun h => by simpa [plainPair] using h⟩

theorem spec_plain (v : Version) : ∀ c, PlainCls c (specTable v c) := by
  refine spec_induct v PlainCls ?_ ?_
  · have h : ((List.range 38).all fun c => plainCls c (specTable v c)) = true := by
      cases v <;> decide +kernel
    intro c hc
    exact plainCls_iff (List.all_eq_true.1 h c (List.mem_range.2 hc))
  · intro c _
    exact ⟨rfl, rfl, rfl, fun _ h => absurd h List.not_mem_nil, List.nodup_nil, .nil⟩

theorem plainField_ref {f : Field} (h : plainField f = true) : f.kind ≠ .ref := by
  unfold plainField at h
  simp only [Bool.and_eq_true, decide_eq_true_eq] at h
  exact h.1

theorem plainField_default {f : Field} (h : plainField f = true) {c : ClsId} (ht : f.type = .complex c) :
    f.default = Val.none := by
  unfold plainField at h
  rw [ht] at h
  simp only [Bool.and_eq_true, decide_eq_true_eq] at h
  obtain ⟨_, h⟩ := h
  split at h
  · assumption
  · rename_i hd; cases hd
  · cases h

theorem spec_sane (v : Version) : (specTable v).Sane where
  names c := (spec_plain v c).2.2.2.2.1
  self c := by rw [(spec_plain v c).1]; exact List.mem_singleton_self c
  defaults c f c' hf ht := by
    rw [plainField_default ((spec_plain v c).2.2.2.1 f hf) ht]
    exact .inr .none

theorem flat_plain {T : Table} {c : ClsId} (h : ∀ f ∈ (T c).fields, plainField f = true) (n : Nat) :
    flat T (n + 1) c = (T c).fields := by
  have : ∀ l : List Field, (∀ f ∈ l, plainField f = true) → (l.flatMap fun f =>
      match f.kind, f.type with
      | .ref, .complex g => flat T n g
      | _, _ => [f]) = l := by
    intro l
    induction l with
    | nil => intro _; rfl
    | cons f l ih =>
      intro h
      rw [List.flatMap_cons, ih fun g hg => h g (List.mem_cons_of_mem _ hg)]
      have := plainField_ref (h f (List.mem_cons_self ..))
      cases hk : f.kind <;> first | exact absurd hk this | rfl
  exact this _ h

theorem spec_unambiguous (v : Version) (c : ClsId) : Unambiguous (specTable v) c := by
  intro n
  cases n with
  | zero => exact .nil
  | succ n => rw [flat_plain (spec_plain v c).2.2.2.1]; exact (spec_plain v c).2.2.2.2.2

theorem spec_new (v : Version) (N : Nat) (c : ClsId) : ∃ i, newInst (specTable v) (N + 12) c = .ok i := by
  have h : ∀ c : Nat, ∃ i, newInst (specTable v) (N + 12) c = .ok i := by
    intro c
    cases v
    all_goals
      match c with
      | 0 => exact ⟨_, rfl⟩
      | 1 => exact ⟨_, rfl⟩
      | 2 => exact ⟨_, rfl⟩
      | 3 => exact ⟨_, rfl⟩
      | 4 => exact ⟨_, rfl⟩
      | 5 => exact ⟨_, rfl⟩
      | 6 => exact ⟨_, rfl⟩
      | 7 => exact ⟨_, rfl⟩
      | 8 => exact ⟨_, rfl⟩
      | 9 => exact ⟨_, rfl⟩
      | 10 => exact ⟨_, rfl⟩
      | 11 => exact ⟨_, rfl⟩
      | 12 => exact ⟨_, rfl⟩
      | 13 => exact ⟨_, rfl⟩
      | 14 => exact ⟨_, rfl⟩
      | 15 => exact ⟨_, rfl⟩
      | 16 => exact ⟨_, rfl⟩
      | 17 => exact ⟨_, rfl⟩
      | 18 => exact ⟨_, rfl⟩
      | 19 => exact ⟨_, rfl⟩
      | 20 => exact ⟨_, rfl⟩
      | 21 => exact ⟨_, rfl⟩
      | 22 => exact ⟨_, rfl⟩
      | 23 => exact ⟨_, rfl⟩
      | 24 => exact ⟨_, rfl⟩
      | 25 => exact ⟨_, rfl⟩
      | 26 => exact ⟨_, rfl⟩
      | 27 => exact ⟨_, rfl⟩
      | 28 => exact ⟨_, rfl⟩
      | 29 => exact ⟨_, rfl⟩
      | 30 => exact ⟨_, rfl⟩
      | 31 => exact ⟨_, rfl⟩
      | 32 => exact ⟨_, rfl⟩
      | 33 => exact ⟨_, rfl⟩
      | 34 => exact ⟨_, rfl⟩
      | 35 => exact ⟨_, rfl⟩
      | 36 => exact ⟨_, rfl⟩
      | 37 => exact ⟨_, rfl⟩
      | _ + 38 => exact ⟨_, rfl⟩
  exact h c

/-! ### Fields -/

section
variable {T : Table} {N : Nat}

theorem get_of_all2 {R : Field → Val → Prop} {fs : List Field} {vs : List (Str × Val)}
    (h : All2 (fun f p => p.1 = f.name ∧ R f p.2) fs vs) (hn : (fs.map (·.name)).Nodup) :
    vs.map (·.1) = fs.map (·.name) ∧ ∀ f v, f ∈ fs → Dict.get? vs f.name = some v → R f v := by
  induction h with
  | nil => exact ⟨rfl, fun _ _ h => absurd h List.not_mem_nil⟩
  | @cons f p fs vs hp _ ih =>
    obtain ⟨k, w⟩ := p
    obtain ⟨rfl, hr⟩ := hp
    rw [List.map_cons, List.nodup_cons] at hn
    obtain ⟨ih1, ih2⟩ := ih hn.2
    refine ⟨by simp [ih1], fun g v hg hv => ?_⟩
    rcases List.mem_cons.1 hg with rfl | hg
    · rw [Dict.get?, if_pos rfl] at hv
      injection hv with hv; subst hv; exact hr
    · have hne : f.name ≠ g.name := fun he => hn.1 (he ▸ List.mem_map.2 ⟨g, hg, rfl⟩)
      rw [Dict.get?, if_neg hne] at hv
      exact ih2 g v hg hv

theorem fs_str (name : Str) (required : Bool) (s : Option Str) : FieldSurvives T N (strAttr name required) (optStr s) := by
  cases s with
  | none => exact .noAttr (b := .none) rfl rfl rfl rfl rfl
  | some s => exact .attr (txt := s) (b := .str s) rfl rfl nofun rfl rfl rfl rfl

theorem fs_enum (name : Str) (values : List Str) (required : Bool) (d : Val) (s : Str) (h : s ∈ values) :
    FieldSurvives T N (enumAttr name values required d) (strV s) :=
  .attr (txt := s) (b := .str s) rfl rfl nofun rfl rfl rfl <| by
    simp only [SType.accept, stringAccept, cleanWhitespace, ifGiven, raiseIf, truthy?,
      List.contains_iff_mem.2 h, Bool.not_true, Bool.and_false, Bool.false_eq_true, if_false]
    rfl

theorem fs_enum_none (name : Str) (values : List Str) (required : Bool) :
    FieldSurvives T N (enumAttr name values required) Val.none := .noAttr (b := .none) rfl rfl rfl rfl rfl

theorem fs_none (name : Str) (c : ClsId) (required : Bool) (ns : Option Str) :
    FieldSurvives T N (elem name c required ns) Val.none := .absent rfl <| by
  show acceptCls T c Val.none = _
  unfold acceptCls
  split <;> rfl

theorem fs_doc : FieldSurvives T N documentation Val.none := .absent rfl rfl

theorem fs_elem (name : Str) (c : ClsId) (required : Bool) (ns : Option Str) {v : Val} (hv : v ≠ Val.none)
    (h : Survives T N (.complex c) v) : FieldSurvives T N (elem name c required ns) v := .element rfl hv h

theorem fs_list (name tag : Str) (c : ClsId) (m : Option Int) (ns : Option Str) (t : Bool) (is : List Val)
    (h : ∀ v ∈ is, Survives T N (.complex c) v) : FieldSurvives T N (listOf name tag c m ns) (.list t is) :=
  .list rfl nofun fun v hv => .val (h v hv)

theorem fs_map (name tag : Str) (c : ClsId) (m : Option Int) (ns : Option Str) (t : Bool) {α : Type} (val : α → Val)
    (l : List α) (h : ∀ a ∈ l, Survives T N (.complex c) (val a)) :
    FieldSurvives T N (listOf name tag c m ns) (.list t (l.map val)) :=
  fs_list name tag c m ns t _ fun v hv => by
    obtain ⟨a, ha, rfl⟩ := List.mem_map.1 hv
    exact h a ha

end

/-- An instance of a class of the table survives if its fields do. -/
theorem spec_survives (v : Version) (N : Nat) (c : ClsId) (fs : List (Str × Val)) (x : Option Xml)
    (h : All2 (fun f p => p.1 = f.name ∧ FieldSurvives (specTable v) (N + 12) f p.2) (specTable v c).fields fs) :
    Survives (specTable v) (N + 12) (.complex c) (.inst c fs x) := by
  obtain ⟨_, h2, h3, _, h5, _⟩ := spec_plain v c
  obtain ⟨i, hi⟩ := spec_new v N c
  obtain ⟨g1, g2⟩ := get_of_all2 h h5
  exact .inst h2 h3 (spec_unambiguous v c) hi g1 g2

/-! ### The objects -/

section
variable (v : Version) (N : Nat)

local notation "sv" => Survives (specTable v) (N + 12)

theorem sv_enum (a : Atom) : sv (.complex xEnumeration) (enumV a) :=
  spec_survives v N _ _ _ (.cons ⟨rfl, fs_str _ _ _⟩ .nil)

theorem fs_facet (name : Str) (c : ClsId) (hc : c = xPattern ∨ c = xRestrictionValue) (s : Option Str) :
    FieldSurvives (specTable v) (N + 12) (elem name c) (facetV c s) := by
  cases s with
  | none => exact fs_none _ _ _ _
  | some s =>
    refine fs_elem _ _ _ _ nofun ?_
    rcases hc with rfl | rfl
    · exact spec_survives v N _ _ _ (.cons ⟨rfl, fs_str _ _ (some s)⟩ .nil)
    · exact spec_survives v N _ _ _ (.cons ⟨rfl, fs_str _ _ (some s)⟩ .nil)

theorem sv_restriction (base : Str) (enums : List Atom) (f : Facets) :
    sv (.complex xRestriction) (restrictionV base (enums.map enumV) f) := by
  refine spec_survives v N _ _ _ (.cons ⟨rfl, fs_str _ _ (some base)⟩ <|
    .cons ⟨rfl, fs_map _ _ _ _ _ _ _ _ fun a _ => sv_enum v N a⟩ <| .cons ⟨rfl, fs_facet v N _ _ (.inl rfl) _⟩ <|
    .cons ⟨rfl, fs_facet v N _ _ (.inr rfl) _⟩ <| .cons ⟨rfl, fs_facet v N _ _ (.inr rfl) _⟩ <|
    .cons ⟨rfl, fs_facet v N _ _ (.inr rfl) _⟩ <| .cons ⟨rfl, fs_facet v N _ _ (.inr rfl) _⟩ <|
    .cons ⟨rfl, fs_facet v N _ _ (.inr rfl) _⟩ <| .cons ⟨rfl, fs_facet v N _ _ (.inr rfl) _⟩ <|
    .cons ⟨rfl, fs_none _ _ _ _⟩ <| .cons ⟨rfl, fs_none _ _ _ _⟩ <| .cons ⟨rfl, fs_none _ _ _ _⟩ <|
    .cons ⟨rfl, fs_none _ _ _ _⟩ .nil)

theorem sv_simpleType (name : Option Str) (r : Val) (hr : r ≠ Val.none) (h : sv (.complex xRestriction) r) :
    sv (.complex xSimpleType) (simpleTypeV name r) :=
  spec_survives v N _ _ _ (.cons ⟨rfl, fs_str _ _ _⟩ <| .cons ⟨rfl, fs_elem _ _ _ _ hr h⟩ <|
    .cons ⟨rfl, fs_none _ _ _ _⟩ .nil)

theorem fs_min (n : Option Int) : FieldSurvives (specTable v) (N + 12) minField (optInt n) := by
  cases n with
  | none => exact .noAttr (b := .none) rfl rfl rfl rfl rfl
  | some n =>
    have h : (SType.integer (IntKind.integer.facets {})).accept (.int n) = .ok (.int n) := by
      rw [C01_integer_range, if_pos (by simp [Spec.InRange, Spec.AtLeast, Spec.AtMost, Spec.minOf, Spec.maxOf])]
    obtain ⟨sign, digits, h1, _, _, _, _, h2⟩ := C02_integer_roundtrip .integer {} n h
    exact .attr rfl rfl nofun rfl h1 h2 h

theorem fs_max (b : Option Bound) : FieldSurvives (specTable v) (N + 12) maxField (optBound b) := by
  cases b with
  | none => exact .noAttr (b := .none) rfl rfl rfl rfl rfl
  | some b =>
    cases b with
    | unbounded => exact .attr (txt := py"unbounded") (b := .unbounded) rfl rfl nofun rfl rfl rfl rfl
    | int n =>
      refine .attr (txt := intStr n) (b := .int n) rfl rfl nofun rfl rfl ?_ ?_
      · have hne : (Atom.str (intStr n)) ≠ .str py"unbounded" := by
          intro h
          injection h with h
          have := pyInt_intStr n
          rw [h] at this
          cases this
        show (if Atom.str (intStr n) = .str py"unbounded" ∨ _ then _ else _) = _
        rw [if_neg (by rintro (h | h); exacts [hne h, by cases h])]
        show (pyInt (intStr n)).map Atom.int = _
        rw [pyInt_intStr]; rfl
      · rfl

theorem fs_nil (b : Option Bool) : FieldSurvives (specTable v) (N + 12) nilField (optBool b) := by
  cases b with
  | none => exact .noAttr (b := .none) rfl rfl rfl rfl rfl
  | some b =>
    refine .attr (txt := boolText b) (b := .bool b) rfl rfl nofun rfl ?_ ?_ ?_ <;> cases b <;> rfl

theorem sv_element (p : ElementParts) (hs : p.simpleType = Val.none ∨ (p.simpleType ≠ Val.none ∧ sv (.complex xSimpleType) p.simpleType))
    (hc : p.complexType = Val.none ∨ (p.complexType ≠ Val.none ∧ sv (.complex xComplexType) p.complexType)) :
    sv (.complex xElement) (elementV p) := by
  refine spec_survives v N _ _ _ (.cons ⟨rfl, fs_str _ _ (some p.name)⟩ <| .cons ⟨rfl, fs_str _ _ _⟩ <|
    .cons ⟨rfl, fs_str _ _ none⟩ <| .cons ⟨rfl, fs_min v N _⟩ <| .cons ⟨rfl, fs_max v N _⟩ <| .cons ⟨rfl, fs_nil v N _⟩ <|
    .cons ⟨rfl, fs_str _ _ _⟩ <| .cons ⟨rfl, ?_⟩ <| .cons ⟨rfl, ?_⟩ .nil)
  · rcases hs with hs | ⟨hn, hs⟩
    · show FieldSurvives _ _ _ p.simpleType
      rw [hs]; exact fs_none _ _ _ _
    · exact fs_elem _ _ _ _ hn hs
  · rcases hc with hs | ⟨hn, hs⟩
    · show FieldSurvives _ _ _ p.complexType
      rw [hs]; exact fs_none _ _ _ _
    · exact fs_elem _ _ _ _ hn hs

theorem sv_sequence (items : List Val) (h : ∀ i ∈ items, sv (.complex xElement) i) : sv (.complex xSequence) (sequenceV items) :=
  spec_survives v N _ _ _ (.cons ⟨rfl, fs_list _ _ _ _ _ _ _ h⟩ .nil)

theorem sv_attribute (name type use : Str) : sv (.complex xAttribute) (attributeV name type use) :=
  spec_survives v N _ _ _ (.cons ⟨rfl, fs_str _ _ (some _)⟩ <| .cons ⟨rfl, fs_str _ _ none⟩ <|
    .cons ⟨rfl, fs_str _ _ (some _)⟩ <| .cons ⟨rfl, fs_str _ _ (some _)⟩ <| .cons ⟨rfl, fs_none _ _ _ _⟩ .nil)

theorem fs_container (name : Str) (i : Option Indicator) (items : List Val) (j : Indicator)
    (h : ∀ i ∈ items, sv (.complex xElement) i) :
    FieldSurvives (specTable v) (N + 12) (elem name xSequence) (containerV i items j) := by
  unfold containerV
  split
  · exact fs_elem _ _ _ _ nofun (sv_sequence v N items h)
  · exact fs_none _ _ _ _

theorem sv_complexType (name : Option Str) (i : Option Indicator) (items attrs : List Val)
    (h : ∀ i ∈ items, sv (.complex xElement) i) (ha : ∀ a ∈ attrs, sv (.complex xAttribute) a) :
    sv (.complex xComplexType) (complexTypeV name i items attrs) :=
  spec_survives v N _ _ _ (.cons ⟨rfl, fs_str _ _ _⟩ <| .cons ⟨rfl, fs_container v N _ _ _ _ h⟩ <|
    .cons ⟨rfl, fs_container v N _ _ _ _ h⟩ <| .cons ⟨rfl, fs_container v N _ _ _ _ h⟩ <| .cons ⟨rfl, fs_none _ _ _ _⟩ <|
    .cons ⟨rfl, fs_list _ _ _ _ _ _ _ ha⟩ <| .cons ⟨rfl, fs_list _ _ _ _ _ _ _ nofun⟩ .nil)

theorem sv_elem (e : GElem) : sv (.complex xElement) (elementV (elemParts e)) := by
  apply sv_element
  · unfold elemParts
    split
    · exact .inl rfl
    · exact .inr ⟨nofun, sv_simpleType v N _ _ nofun (sv_restriction v N _ _ _)⟩
  · unfold elemParts
    split <;> exact .inl rfl

theorem sv_complex (c : GComplex) (named : Bool) : sv (.complex xComplexType) (complexV c named) := by
  apply sv_complexType
  · intro i hi
    obtain ⟨e, _, rfl⟩ := List.mem_map.1 hi
    exact sv_elem v N e
  · intro i hi
    obtain ⟨e, _, rfl⟩ := List.mem_map.1 hi
    exact sv_attribute v N _ _ _

theorem sv_top (e : GTop) : sv (.complex xElement) (elementV (topParts e)) := by
  apply sv_element
  · unfold topParts
    split <;> exact .inl rfl
  · unfold topParts
    split
    · exact .inl rfl
    · exact .inr ⟨nofun, sv_complex v N _ _⟩
    · exact .inl rfl

/-- The description of every schema survives. -/
theorem sv_schema (s : GSchema) : sv (.complex xSchema) (describe s) :=
  spec_survives v N _ _ _ (.cons ⟨rfl, fs_str _ _ (some _)⟩ <|
    .cons ⟨rfl, fs_enum _ _ _ _ _ (by unfold formText; split <;> decide)⟩ <|
    .cons ⟨rfl, fs_map _ _ _ _ _ _ _ _ fun i _ => spec_survives v N _ _ _
      (.cons ⟨rfl, fs_str _ _ _⟩ <| .cons ⟨rfl, fs_str _ _ (some _)⟩ .nil)⟩ <|
    .cons ⟨rfl, fs_map _ _ _ _ _ _ _ _ fun i _ => spec_survives v N _ _ _ (.cons ⟨rfl, fs_str _ _ _⟩ .nil)⟩ <|
    .cons ⟨rfl, fs_map _ _ _ _ _ _ _ _ fun i _ => sv_simpleType v N _ _ nofun (sv_restriction v N _ _ _)⟩ <|
    .cons ⟨rfl, fs_list _ _ _ _ _ _ _ nofun⟩ <| .cons ⟨rfl, fs_list _ _ _ _ _ _ _ nofun⟩ <|
    .cons ⟨rfl, fs_map _ _ _ _ _ _ _ _ fun c _ => sv_complex v N c true⟩ <|
    .cons ⟨rfl, fs_map _ _ _ _ _ _ _ _ fun e _ => sv_top v N e⟩ .nil)

theorem sv_service (s : WService) : sv (.complex wService) (serviceOf v s) := by
  have hp : sv (.complex wPort) (portV (s.name ++ py"Port") (py"tns:" ++ s.name ++ py"Binding") (addressV s.location)) :=
    spec_survives v N _ _ _ (.cons ⟨rfl, fs_str _ _ (some _)⟩ <| .cons ⟨rfl, fs_str _ _ (some _)⟩ <| .cons ⟨rfl, fs_doc⟩ <|
      .cons ⟨rfl, fs_elem _ _ _ _ nofun (spec_survives v N _ _ _ (.cons ⟨rfl, fs_str _ _ _⟩ .nil))⟩ .nil)
  have hl : FieldSurvives (specTable v) (N + 12) (listOf py"ports" py"port" wPort (some 0)) (.list true
      [portV (s.name ++ py"Port") (py"tns:" ++ s.name ++ py"Binding") (addressV s.location)]) :=
    fs_list _ _ _ _ _ _ _ fun i hi => by rw [List.mem_singleton.1 hi]; exact hp
  have hn := fs_str (T := specTable v) (N := N + 12) py"name" true (some s.name)
  unfold serviceOf serviceV
  cases v
  · exact spec_survives _ N _ _ _ (.cons ⟨rfl, hn⟩ <| .cons ⟨rfl, hl⟩ <| .cons ⟨rfl, fs_doc⟩ .nil)
  · exact spec_survives _ N _ _ _ (.cons ⟨rfl, hn⟩ <| .cons ⟨rfl, fs_doc⟩ <| .cons ⟨rfl, hl⟩ .nil)

theorem sv_flow (c : ClsId) (hc : c = wInput ∨ c = wOutput) (message : Option Str) (body : Val)
    (hb : body = Val.none ∨ (body ≠ Val.none ∧ sv (.complex wSoapBody) body)) :
    sv (.complex c) (flowV c message body) := by
  have hbody : FieldSurvives (specTable v) (N + 12) (elem py"body" wSoapBody true (some v.bindingNs)) body := by
    rcases hb with rfl | ⟨hn, hb⟩
    · exact fs_none _ _ _ _
    · exact fs_elem _ _ _ _ hn hb
  have hh := fs_list (T := specTable v) (N := N + 12) py"headers" py"header" wSoapHeader (some 0) (some v.bindingNs) true []
    nofun
  rcases hc with rfl | rfl
  · exact spec_survives v N _ _ _ (.cons ⟨rfl, fs_str _ _ none⟩ <| .cons ⟨rfl, fs_str _ _ _⟩ <| .cons ⟨rfl, fs_doc⟩ <|
      .cons ⟨rfl, hbody⟩ <| .cons ⟨rfl, hh⟩ .nil)
  · exact spec_survives v N _ _ _ (.cons ⟨rfl, fs_str _ _ none⟩ <| .cons ⟨rfl, fs_str _ _ _⟩ <| .cons ⟨rfl, fs_doc⟩ <|
      .cons ⟨rfl, hbody⟩ <| .cons ⟨rfl, hh⟩ .nil)

theorem sv_soapBody : sv (.complex wSoapBody) soapBodyV :=
  spec_survives v N _ _ _ (.cons ⟨rfl, fs_str _ _ none⟩ <| .cons ⟨rfl, fs_enum _ _ _ _ _ (by decide)⟩ <|
    .cons ⟨rfl, fs_str _ _ none⟩ <| .cons ⟨rfl, fs_str _ _ none⟩ .nil)

theorem sv_soapOperation (action style : Option Str) (h : style ∈ [none, some py"document", some py"rpc"]) :
    sv (.complex wSoapOperation) (soapOperationV v action style) := by
  have ha := fs_str (T := specTable v) (N := N + 12) py"soapAction" false action
  have hs : FieldSurvives (specTable v) (N + 12) (enumAttr py"style" [py"document", py"rpc"] false) (optStr style) := by
    simp only [List.mem_cons, List.not_mem_nil, or_false] at h
    rcases h with rfl | rfl | rfl
    · exact fs_enum_none _ _ _
    · exact fs_enum _ _ _ _ _ (by decide)
    · exact fs_enum _ _ _ _ _ (by decide)
  unfold soapOperationV
  cases v
  · exact spec_survives _ N _ _ _ (.cons ⟨rfl, ha⟩ <| .cons ⟨rfl, hs⟩ .nil)
  · exact spec_survives _ N _ _ _ (.cons ⟨rfl, ha⟩ <| .cons ⟨rfl, hs⟩ <|
      .cons ⟨rfl, .noAttr (b := .none) rfl rfl rfl rfl rfl⟩ .nil)

theorem sv_operation (name : Str) (input output soap : Val) (hi : input ≠ Val.none ∧ sv (.complex wInput) input)
    (ho : output ≠ Val.none ∧ sv (.complex wOutput) output)
    (hs : soap = Val.none ∨ (soap ≠ Val.none ∧ sv (.complex wSoapOperation) soap)) :
    sv (.complex wOperation) (operationV v name input output soap) := by
  have h1 := fs_str (T := specTable v) (N := N + 12) py"name" true (some name)
  have h2 := fs_elem (T := specTable v) (N := N + 12) py"input" wInput false none hi.1 hi.2
  have h3 := fs_elem (T := specTable v) (N := N + 12) py"output" wOutput false none ho.1 ho.2
  have h4 := fs_list (T := specTable v) (N := N + 12) py"faults" py"fault" wFault (some 0) none true [] nofun
  have h5 : FieldSurvives (specTable v) (N + 12) (elem py"operation" wSoapOperation false (some v.bindingNs)) soap := by
    rcases hs with rfl | ⟨hn, hb⟩
    · exact fs_none _ _ _ _
    · exact fs_elem _ _ _ _ hn hb
  unfold operationV
  cases v
  · exact spec_survives _ N _ _ _ (.cons ⟨rfl, h1⟩ <| .cons ⟨rfl, h2⟩ <| .cons ⟨rfl, h3⟩ <| .cons ⟨rfl, h4⟩ <|
      .cons ⟨rfl, fs_doc⟩ <| .cons ⟨rfl, h5⟩ .nil)
  · exact spec_survives _ N _ _ _ (.cons ⟨rfl, h1⟩ <| .cons ⟨rfl, fs_doc⟩ <| .cons ⟨rfl, h2⟩ <| .cons ⟨rfl, h3⟩ <|
      .cons ⟨rfl, h4⟩ <| .cons ⟨rfl, h5⟩ .nil)

theorem sv_portOperation (m : WMethod) : sv (.complex wOperation) (portOperationOf v m) :=
  sv_operation v N _ _ _ _ ⟨nofun, sv_flow v N _ (.inl rfl) _ _ (.inl rfl)⟩
    ⟨nofun, sv_flow v N _ (.inr rfl) _ _ (.inl rfl)⟩ (.inl rfl)

theorem sv_bindingOperation (m : WMethod) (h : m.style ∈ [none, some py"document", some py"rpc"]) :
    sv (.complex wOperation) (bindingOperationOf v m) :=
  sv_operation v N _ _ _ _ ⟨nofun, sv_flow v N _ (.inl rfl) _ _ (.inr ⟨nofun, sv_soapBody v N⟩)⟩
    ⟨nofun, sv_flow v N _ (.inr rfl) _ _ (.inr ⟨nofun, sv_soapBody v N⟩)⟩
    (.inr ⟨by unfold soapOperationV; cases v <;> exact nofun, sv_soapOperation v N _ _ h⟩)

theorem sv_portType (s : WService) : sv (.complex wPortType) (portTypeOf v s) := by
  have h1 := fs_str (T := specTable v) (N := N + 12) py"name" true (some (s.name ++ py"PortType"))
  have h2 := fs_map (T := specTable v) (N := N + 12) py"operations" py"operation" wOperation (some 0) none true
    (portOperationOf v) s.methods fun m _ => sv_portOperation v N m
  unfold portTypeOf portTypeV
  cases v
  · exact spec_survives _ N _ _ _ (.cons ⟨rfl, h1⟩ <| .cons ⟨rfl, h2⟩ <| .cons ⟨rfl, fs_doc⟩ .nil)
  · exact spec_survives _ N _ _ _ (.cons ⟨rfl, h1⟩ <| .cons ⟨rfl, fs_doc⟩ <| .cons ⟨rfl, h2⟩ .nil)

theorem sv_binding (s : WService) (h : ∀ m ∈ s.methods, m.style ∈ [none, some py"document", some py"rpc"]) :
    sv (.complex wBinding) (bindingOf v s) := by
  have h1 := fs_str (T := specTable v) (N := N + 12) py"name" true (some (s.name ++ py"Binding"))
  have h2 := fs_str (T := specTable v) (N := N + 12) py"type" true (some (py"tns:" ++ s.name ++ py"PortType"))
  have h3 := fs_map (T := specTable v) (N := N + 12) py"operations" py"operation" wOperation (some 0) none true
    (bindingOperationOf v) s.methods fun m hm => sv_bindingOperation v N m (h m hm)
  have h4 : FieldSurvives (specTable v) (N + 12) (elem py"binding" wSoapBinding true (some v.bindingNs)) soapBindingV :=
    fs_elem _ _ _ _ nofun (spec_survives v N _ _ _ (.cons ⟨rfl, fs_enum _ _ _ _ _ (by decide)⟩ <|
      .cons ⟨rfl, fs_str _ _ (some _)⟩ .nil))
  unfold bindingOf bindingV
  cases v
  · exact spec_survives _ N _ _ _ (.cons ⟨rfl, h1⟩ <| .cons ⟨rfl, h2⟩ <| .cons ⟨rfl, h3⟩ <| .cons ⟨rfl, fs_doc⟩ <|
      .cons ⟨rfl, h4⟩ .nil)
  · exact spec_survives _ N _ _ _ (.cons ⟨rfl, h1⟩ <| .cons ⟨rfl, h2⟩ <| .cons ⟨rfl, fs_doc⟩ <| .cons ⟨rfl, h3⟩ <|
      .cons ⟨rfl, h4⟩ .nil)

theorem sv_part (p : WPart) : sv (.complex wPart) (partOf p) := by
  have key : ∀ e t, sv (.complex wPart) (partV e t) := fun e t =>
    spec_survives v N _ _ _ (.cons ⟨rfl, fs_str _ _ (some _)⟩ <| .cons ⟨rfl, fs_str _ _ _⟩ <|
      .cons ⟨rfl, fs_str _ _ _⟩ .nil)
  cases p <;> exact key _ _

theorem sv_message (name : Str) (p : WPart) : sv (.complex wMessage) (messageV v name (partOf p)) := by
  have h1 := fs_str (T := specTable v) (N := N + 12) py"name" true (some name)
  have h2 := fs_map (T := specTable v) (N := N + 12) py"parts" py"part" wPart (some 0) none false partOf [p]
    fun p _ => sv_part v N p
  unfold messageV
  cases v
  · exact spec_survives _ N _ _ _ (.cons ⟨rfl, h1⟩ <| .cons ⟨rfl, h2⟩ <| .cons ⟨rfl, fs_doc⟩ .nil)
  · exact spec_survives _ N _ _ _ (.cons ⟨rfl, h1⟩ <| .cons ⟨rfl, fs_doc⟩ <| .cons ⟨rfl, h2⟩ .nil)

/-- The description of every service with good styles survives. -/
theorem sv_definitions (s : WService) (h : ∀ m ∈ s.methods, m.style ∈ [none, some py"document", some py"rpc"]) :
    sv (.complex wDefinitions) (definitionsOf v s) := by
  have h1 := fs_str (T := specTable v) (N := N + 12) py"name" false none
  have h2 := fs_str (T := specTable v) (N := N + 12) py"targetNamespace" false (some s.targetNamespace)
  have h3 := fs_list (T := specTable v) (N := N + 12) py"imports" py"import" wImport (some 0) none true [] nofun
  have h4 : FieldSurvives (specTable v) (N + 12) (elem py"types" wTypes false) (typesV (s.schemas.map describe)) :=
    fs_elem _ _ _ _ nofun (spec_survives v N _ _ _
      (.cons ⟨rfl, fs_map _ _ _ _ _ _ _ _ fun g _ => sv_schema v N g⟩ <| .cons ⟨rfl, fs_doc⟩ .nil))
  have h5 : FieldSurvives (specTable v) (N + 12) (listOf py"messages" py"message" wMessage (some 0))
      (.list true (s.methods.flatMap (messagesOf v))) :=
    fs_list _ _ _ _ _ _ _ fun i hi => by
      obtain ⟨m, _, hi⟩ := List.mem_flatMap.1 hi
      rcases List.mem_cons.1 hi with rfl | hi
      · exact sv_message v N _ _
      · rw [List.mem_singleton.1 hi]; exact sv_message v N _ _
  have h6 := fs_map (T := specTable v) (N := N + 12) py"portTypes" py"portType" wPortType (some 0) none true
    (fun _ : Unit => portTypeOf v s) [()] fun _ _ => sv_portType v N s
  have h7 := fs_map (T := specTable v) (N := N + 12) py"bindings" py"binding" wBinding (some 0) none true
    (fun _ : Unit => bindingOf v s) [()] fun _ _ => sv_binding v N s h
  have h8 := fs_map (T := specTable v) (N := N + 12) py"services" py"service" wService (some 0) none true
    (fun _ : Unit => serviceOf v s) [()] fun _ _ => sv_service v N s
  unfold definitionsOf definitionsV
  cases v
  · exact spec_survives _ N _ _ _ (.cons ⟨rfl, h1⟩ <| .cons ⟨rfl, h2⟩ <| .cons ⟨rfl, h3⟩ <| .cons ⟨rfl, h4⟩ <|
      .cons ⟨rfl, h5⟩ <| .cons ⟨rfl, h6⟩ <| .cons ⟨rfl, h7⟩ <| .cons ⟨rfl, h8⟩ <| .cons ⟨rfl, fs_doc⟩ .nil)
  · exact spec_survives _ N _ _ _ (.cons ⟨rfl, h1⟩ <| .cons ⟨rfl, h2⟩ <| .cons ⟨rfl, fs_doc⟩ <| .cons ⟨rfl, h3⟩ <|
      .cons ⟨rfl, h4⟩ <| .cons ⟨rfl, h5⟩ <| .cons ⟨rfl, h6⟩ <| .cons ⟨rfl, h7⟩ <| .cons ⟨rfl, h8⟩ .nil)

end

end Soapfish
