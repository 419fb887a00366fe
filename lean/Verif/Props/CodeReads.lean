import Verif.Spec.Kept
import Verif.Props.CodeValid
import Verif.Props.RoundTrip
import Verif.GenerateLemmas
/-
Generated code reads valid documents and writes them back: C88.
-/
set_option maxRecDepth 8000
set_option linter.unusedSectionVars false
namespace Soapfish

open Spec (InRange RealDate WholeTime two isoText offsetText PatternAccepts IsoCanonical)

section
variable {prefixes : List (Option Str)} {digest : Str → Str} {n limit : Nat} {parent : Option Str} {d : DSchema}
  {m : PyModule} {vars : SchemaVars} {env : PyEnv} {s : GSchema} {compile : Str → Pattern} {iso : Iso} {T : Table}
  {means : Str → Str → Prop}

/-! ### Texts -/

theorem xmlOk_app {a b : Str} (ha : XmlOk a) (hb : XmlOk b) : XmlOk (a ++ b) := by
  intro c hc
  rcases List.mem_append.1 hc with h | h
  · exact ha c h
  · exact hb c h

theorem two_xmlOk {n : Nat} (hn : n < 100) : XmlOk (two n) := by
  intro c hc
  simp only [two, List.mem_cons, List.not_mem_nil, or_false] at hc
  have h : ∀ k, k < 10 → xmlChar (digitChar k) = true := by decide
  rcases hc with rfl | rfl
  · exact h (n / 10) (by omega)
  · exact h (n % 10) (by omega)

theorem char_xmlOk {c : Char} (h : xmlChar c = true) : XmlOk [c] := by
  intro x hx
  rcases List.mem_singleton.1 hx with rfl
  exact h

theorem dateText_xmlOk {y m d : Nat} (h : RealDate y m d) : XmlOk (dateText y m d) := by
  obtain ⟨hm, hd⟩ := realDate_lt h
  have hy := h.2.1
  have h1 := two_xmlOk (n := y / 100) (by omega)
  have h2 := two_xmlOk (n := y % 100) (by omega)
  exact xmlOk_app (xmlOk_app (xmlOk_app (xmlOk_app (xmlOk_app h1 h2) (char_xmlOk (by decide))) (two_xmlOk hm))
    (char_xmlOk (by decide))) (two_xmlOk hd)

theorem timeText_xmlOk {t : TimeV} (h : WholeTime t) : XmlOk (timeText t) := by
  obtain ⟨h1, h2, h3, _⟩ := h
  exact xmlOk_app (xmlOk_app (xmlOk_app (xmlOk_app (two_xmlOk (by omega)) (char_xmlOk (by decide))) (two_xmlOk (by omega)))
    (char_xmlOk (by decide))) (two_xmlOk (by omega))

theorem isoText_eq (y m d : Nat) (t : TimeV) : isoText y m d t = dateText y m d ++ ['T'] ++ timeText t := by
  simp [isoText, dateText, timeText]

theorem offsetText_xmlOk {n : Int} (h1 : -840 ≤ n) (h2 : n ≤ 840) : XmlOk (offsetText n) := by
  unfold offsetText
  have h3 := two_xmlOk (n := n.natAbs / 60) (by omega)
  have h4 := two_xmlOk (n := n.natAbs % 60) (by omega)
  intro c hc
  rcases List.mem_cons.1 hc with rfl | hc
  · split <;> decide
  · exact xmlOk_app (xmlOk_app h3 (char_xmlOk (by decide))) h4 c hc

theorem repr_xmlOk (d : Dec) : XmlOk d.repr := by
  intro c hc
  rcases (number_chars (repr_number d)).2 c hc with (⟨n, hn, rfl⟩ | rfl | rfl | rfl | rfl) | rfl
  · exact (by decide : ∀ k, k < 10 → xmlChar (digitChar k) = true) n hn
  all_goals decide

/-- A text of a built-in type is read, and written as it was. -/
theorem builtin_reads (hiso : IsoCanonical iso) {b : Builtin} {t : Str} (hk : KeptAttr b t) :
    ∃ st, plainType iso b = .simple st ∧ st.extraAttrs = [] ∧ XmlOk t ∧ ∃ a, st.pythonvalue (.str t) = .ok a ∧
      st.accept a = .ok a ∧ a ≠ .none ∧ st.xmlvalue a = .ok (some t) := by
  have text : XmlOk t → ∃ st, FType.simple (.string {}) = .simple st ∧ st.extraAttrs = [] ∧ XmlOk t ∧ ∃ a, st.pythonvalue (.str t) = .ok a ∧
      st.accept a = .ok a ∧ a ≠ .none ∧ st.xmlvalue a = .ok (some t) := fun h =>
    ⟨_, rfl, rfl, h, .str t, rfl, rfl, by simp, rfl⟩
  cases hk with
  | string => exact text nofun
  | anyURI => exact text nofun
  | kept hk =>
  cases hk with
  | string _ h => exact text h
  | anyURI _ h => exact text h
  | true => exact ⟨_, rfl, rfl, by unfold XmlOk; decide, .bool true, rfl, rfl, by simp, rfl⟩
  | false => exact ⟨_, rfl, rfl, by unfold XmlOk; decide, .bool false, rfl, rfl, by simp, rfl⟩
  | @int k i hr =>
    have hacc : (SType.integer (k.facets {})).accept (.int i) = .ok (.int i) := by
      have := C01_integer_range k i
      rw [if_pos hr] at this; exact this
    obtain ⟨sign, digits, h1, _, _, _, _, h2⟩ := C02_integer_roundtrip k {} i hacc
    have hx : (SType.integer (k.facets {})).xmlvalue (.int i) = .ok (some (intStr i)) := rfl
    have : sign ++ digits = intStr i := by
      have := h1.symm.trans hx
      exact Option.some.inj (Except.ok.inj this)
    rw [this] at h2
    exact ⟨_, rfl, rfl, intStr_xmlOk i, .int i, h2, hacc, by simp, hx⟩
  | @date y m d z hr hy hz =>
    have key : ∀ o : Option Int, (∀ n, o = some n → -1440 < n ∧ n < 1440) → tzSuffix (o.map fun n => ⟨n * 60000000⟩) = z → XmlOk z →
        ∃ st, plainType iso .date = .simple st ∧ st.extraAttrs = [] ∧ XmlOk (dateText y m d ++ z) ∧
        ∃ a, st.pythonvalue (.str (dateText y m d ++ z)) = .ok a ∧ st.accept a = .ok a ∧ a ≠ .none ∧
          st.xmlvalue a = .ok (some (dateText y m d ++ z)) := by
      intro o ho hoz hx
      obtain ⟨h1, t, h2, h3⟩ := C10_date_roundtrip y m d o hr hy ho
      have : t = dateText y m d ++ z := by
        have h4 : SType.date.xmlvalue (dateValue y m d o) = .ok (some (dateStr ⟨y, m, d⟩ ++ tzSuffix (o.map fun n => ⟨n * 60000000⟩))) := by
          simp [SType.xmlvalue, dateXml, dateValue, (valid_iff y m d).2 hr]
        rw [h4, dateStr_text hr hy, hoz] at h2
        exact (Option.some.inj (Except.ok.inj h2)).symm
      subst this
      exact ⟨_, rfl, rfl, xmlOk_app (dateText_xmlOk hr) hx, _, h3, h1, by simp [dateValue], h2⟩
    cases hz with
    | absent => exact key none nofun rfl nofun
    | @offset n h1 h2 =>
      exact key (some n) (fun n' h => by cases h; omega) (offset_text_eq n (by omega) (by omega)) (offsetText_xmlOk h1 h2)
  | @time tv n ht h1 h2 =>
    obtain ⟨h3, t, h4, h5⟩ := C14_time_roundtrip iso hiso tv n ht (by omega) (by omega)
    have : t = timeText tv ++ offsetText n := by
      rw [← timeStr_text ht, ← offset_text_eq n (by omega) (by omega)]
      exact (Option.some.inj (Except.ok.inj h4)).symm
    subst this
    exact ⟨_, rfl, rfl, xmlOk_app (timeText_xmlOk ht) (offsetText_xmlOk h1 h2), _, h5, h3, by simp, h4⟩
  | @dateTime y m d tv n hr hy ht h1 h2 =>
    obtain ⟨h3, h4, h5⟩ := C14_datetime_roundtrip iso hiso y m d tv n hr hy ht (by omega) (by omega)
    refine ⟨_, rfl, rfl, ?_, _, h5, h3, by simp, h4⟩
    rw [isoText_eq]
    exact xmlOk_app (xmlOk_app (xmlOk_app (dateText_xmlOk hr) (char_xmlOk (by decide))) (timeText_xmlOk ht)) (offsetText_xmlOk h1 h2)
  | @decimal d hd _ =>
    obtain ⟨h1, h2⟩ := C16_float_roundtrip {} (.fin d) (fun d' h => by cases h; exact hd) rfl
    exact ⟨_, rfl, rfl, repr_xmlOk d, _, h2, rfl, by simp, h1⟩
  | @double d hd =>
    obtain ⟨h1, h2⟩ := C16_float_roundtrip {} (.fin d) (fun d' h => by cases h; exact hd) rfl
    exact ⟨_, rfl, rfl, repr_xmlOk d, _, h2, rfl, by simp, h1⟩
  | @float d hd =>
    obtain ⟨h1, h2⟩ := C16_float_roundtrip {} (.fin d) (fun d' h => by cases h; exact hd) rfl
    exact ⟨_, rfl, rfl, repr_xmlOk d, _, h2, rfl, by simp, h1⟩

theorem clsName_inj {b b' : Builtin} (h : b.clsName = b'.clsName) : b = b' := by
  have h1 := xsdAttr_builtin b
  rw [h, xsdAttr_builtin b'] at h1
  injection h1 with h1
  injection h1 with h1
  injection h1 with h1
  injection h1 with h1
  exact h1.symm

/-- A simple type is derived in one way. -/
theorem derived_unique (hdiff : ∀ st ∈ d.simpleTypes, ∀ st' ∈ d.simpleTypes, ∀ n n', st.name = some n → st'.name = some n' →
    capName n = capName n' → st = st') {c : Str} {b b' : Builtin} {rs rs' : List DRestriction}
    (h : DerivedBy prefixes d c b rs) (h' : DerivedBy prefixes d c b' rs') : b = b' ∧ rs = rs' := by
  induction h generalizing b' rs' with
  | @first st n r q p l b h1 h2 h3 h4 h5 h6 h7 =>
    generalize hc : capName n = c at h'
    cases h' with
    | @first st' n' r' q' p' l' b' g1 g2 g3 g4 g5 g6 g7 =>
      cases hdiff st h1 st' g1 n n' h2 g2 hc
      rw [h3] at g3; cases g3
      rw [h4] at g4; cases g4
      have := h5.split.symm.trans g5.split
      cases this
      exact ⟨clsName_inj (h7.symm.trans g7), rfl⟩
    | @again st' n' r' q' p' l' b' rs' g1 g2 g3 g4 g5 g6 g7 =>
      cases hdiff st h1 st' g1 n n' h2 g2 hc
      rw [h3] at g3; cases g3
      rw [h4] at g4; cases g4
      have := h5.split.symm.trans g5.split
      cases this
      exact absurd h6 g6
  | @again st n r q p l b rs h1 h2 h3 h4 h5 h6 _ ih =>
    generalize hc : capName n = c at h'
    cases h' with
    | @first st' n' r' q' p' l' b' g1 g2 g3 g4 g5 g6 g7 =>
      cases hdiff st h1 st' g1 n n' h2 g2 hc
      rw [h3] at g3; cases g3
      rw [h4] at g4; cases g4
      have := h5.split.symm.trans g5.split
      cases this
      exact absurd g6 h6
    | @again st' n' r' q' p' l' b' rs' g1 g2 g3 g4 g5 g6 g7 =>
      cases hdiff st h1 st' g1 n n' h2 g2 hc
      rw [h3] at g3; cases g3
      rw [h4] at g4; cases g4
      have := h5.split.symm.trans g5.split
      cases this
      obtain ⟨e1, e2⟩ := ih g7
      exact ⟨e1, by rw [e2]⟩

theorem kept_builtin {b : Builtin} {t : Str} (h : KeptAttr b t) : b ∉ [Builtin.list, .anyType] := by
  cases h with
  | kept h => cases h <;> simp
  | _ => simp

theorem kept_text {b : Builtin} {t : Str} (hb : b ∈ [Builtin.string, .anyURI]) (h : KeptAttr b t) : XmlOk t := by
  cases h with
  | kept h => cases h <;> first | assumption | (simp at hb)
  | _ => exact nofun

/-- A text of the type called `q` is read, and written as it was. -/
theorem fits_reads (hm : schemaToPy prefixes digest n parent d = .ok m) (he : execModule vars [] limit m = .ok (env, s))
    (hd : (m.classes.map (·.name)).Nodup) (hmeans : ∀ p t, means p t → PatternAccepts (compile p) t) (hiso : IsoCanonical iso)
    (hrd : ReadDocument prefixes d) {q : Str} {ft : FType}
    (ht : TypeMeans prefixes d env compile iso q ft) (hc : CheckedType prefixes d q) {t : Str}
    (hf : FitsType prefixes d means KeptAttr q t) :
    ∃ st, ft = .simple st ∧ st.extraAttrs = [] ∧ XmlOk t ∧ ∃ a b, st.pythonvalue (.str t) = .ok a ∧
      st.accept a = .ok b ∧ b ≠ .none ∧ st.xmlvalue b = .ok (some t) := by
  cases hf with
  | @builtin p l b h1 h2 h3 h4 =>
    rw [ht.builtin p l b h1 h2 h3]
    obtain ⟨st, e1, e2, e3, a, e4, e5, e6, e7⟩ := builtin_reads hiso h4
    exact ⟨st, e1, e2, e3, a, a, e4, e5, e6, e7⟩
  | @derived p l b rs h1 h2 h3 h4 h5 =>
    cases hc with
    | @builtin p' l' b' g1 g2 g3 g4 =>
      have := h1.split.symm.trans g1.split
      cases this
      exact absurd g2 h2
    | @derived p' l' b' r g1 g2 g3 g4 g5 g6 g7 =>
      have := h1.split.symm.trans g1.split
      cases this
      obtain ⟨rfl, rfl⟩ := derived_unique hrd.different h3 g3
      have hb : TextBuiltin b := by
        unfold TextBuiltin
        simp only [List.mem_cons, List.not_mem_nil, or_false] at g4
        rcases g4 with rfl | rfl <;> decide
      obtain ⟨o, st, k1, k2, k3, k4⟩ := ht.simple _ _ _ _ h1 h2 h3 (kept_builtin h4)
      obtain ⟨f, rfl⟩ := k3 hb
      obtain ⟨o', k5, k6⟩ := C84_text hm he hd h3 hb (fun r' hr' => by rcases List.mem_singleton.1 hr' with rfl; exact g6) compile iso
      rw [k1] at k5
      cases k5
      obtain ⟨_, k7, k8⟩ := h5 r (List.mem_singleton.2 rfl)
      have hob : TextObeys compile [r] t := by
        constructor
        · intro p hp _
          refine hmeans _ _ (k8 p ?_)
          unfold patternOf at hp
          cases hpt : r.pattern with
          | none => simp [hpt] at hp
          | some x => simp [hpt] at hp; rw [hp]
        · intro es hes
          unfold enumerationOf at hes
          by_cases hen : r.enumerations = []
          · simp [hen] at hes
          · simp [hen] at hes
            subst hes
            exact k7 hen
      have hacc := (k6 t).1 hob
      rw [k4] at hacc
      exact ⟨_, k2, rfl, kept_text g4 h4, .str t, .str t, rfl, Option.some.inj hacc, by simp, rfl⟩

theorem fits_attr {q t : Str} (h : FitsType prefixes d means Kept q t) : FitsType prefixes d means KeptAttr q t := by
  cases h with
  | builtin h1 h2 h3 h4 => exact .builtin h1 h2 h3 (.kept h4)
  | derived h1 h2 h3 h4 h5 => exact .derived h1 h2 h3 (.kept h4) h5

theorem kept_not_empty {b : Builtin} {t : Str} (h : Kept b t) : t ≠ [] := by
  cases h with
  | string h => exact h
  | anyURI h => exact h
  | @int k i =>
    cases i with
    | ofNat n => exact natStr_ne_nil n
    | negSucc n => exact List.cons_ne_nil _ _
  | decimal => exact (number_chars (repr_number _)).1
  | double => exact (number_chars (repr_number _)).1
  | float => exact (number_chars (repr_number _)).1
  | _ => simp [dateText, timeText, isoText, two]

theorem fits_not_empty {q t : Str} (h : FitsType prefixes d means Kept q t) : t ≠ [] := by
  cases h with
  | builtin _ _ _ h => exact kept_not_empty h
  | derived _ _ _ h => exact kept_not_empty h

/-! ### Elements -/

/-- The element is read by the field as a value that is written with the same content. -/
def ReadsElem (T : Table) (N k : Nat) (f : Field) (ns : Str) (qf : Bool) (x : Xml) : Prop :=
  evaluate (newInst T N) f.type = .ok () ∧ ∃ w z, w ≠ Val.none ∧ renderChild (renderCls T k) f f.tag w (some ns) qf = .ok z ∧
    SameContent z x ∧
    ((w = .nil ∧ f.nillable = true ∧ x.attr qNil = some py"true") ∨
     (x.attr qNil = none ∧ ∃ v, parseType (parseCls T N k) f.type x = .ok v ∧ f.acceptItem T v = .ok w))

/-- Attributes and children are read with the class as an instance that is written with the same content. -/
def ReadsContent (T : Table) (N k : Nat) (c : ClsId) (qf : Bool) (as : List (QName × Str)) (ks : List Xml) : Prop :=
  ∀ tag t ns', ∃ fs o, parseCls T N k c (.elem tag as t ks) = .ok (.inst c fs (some (.elem tag as t ks))) ∧
    renderCls T k c (.inst c fs (some (.elem tag as t ks))) ns' qf = .ok o ∧ (attrSetAll [] o.attrs).Perm as ∧
    All2 SameContent o.kids (withoutComments ks)

theorem elemVal_reads {N k : Nat} {f : Field} {ns : Str} {qf : Bool} {x : Xml} (hk : f.kind ≠ .list)
    (h : ReadsElem T N k f ns qf x) : ∃ w z, elemVal T (newInst T N) (parseCls T N k) f x = .ok w ∧ w ≠ Val.none ∧
      renderChild (renderCls T k) f f.tag w (some ns) qf = .ok z ∧ SameContent z x := by
  obtain ⟨he, w, z, hw, hr, hs, ⟨rfl, hnil, hq⟩ | ⟨hq, v, hv, ha⟩⟩ := h
  · refine ⟨.nil, z, ?_, hw, hr, hs⟩
    simp only [elemVal, he, hq, if_true, bind_ok, Field.accept, if_neg hk, Field.acceptItem, Val.isNil, hnil]
  · refine ⟨w, z, ?_, hw, hr, hs⟩
    simp only [elemVal, he, hq, bind_ok, Field.accept, if_neg hk, hv, ha, reduceCtorEq, if_false]

theorem itemVal_reads {N k : Nat} {f : Field} {ns : Str} {qf : Bool} {x : Xml} (h : ReadsElem T N k f ns qf x) {is : List Val}
    (hm : ∀ m, f.maxOccurs = some (.int m) → ((is.length : Int) + 1) ≤ m) :
    ∃ w z, itemVal T (newInst T N) (parseCls T N k) f (.list true is) x = .ok (.list true (is ++ [w])) ∧
      renderChild (renderCls T k) f f.tag w (some ns) qf = .ok z ∧ SameContent z x := by
  have hmax : ifGiven f.maxOccurs (fun m => raiseIf (m.exceeded (is.length + 1)) Exn.valueError) = .ok () := by
    cases hf : f.maxOccurs with
    | none => rfl
    | some b =>
      cases b with
      | unbounded => rfl
      | int m =>
        have := hm m hf
        have hx : (Bound.int m).exceeded (is.length + 1) = false := by
          simp only [Bound.exceeded, decide_eq_false_iff_not]; omega
        simp only [ifGiven, hx, raiseIf]
        rfl
  obtain ⟨he, w, z, hw, hr, hs, ⟨rfl, hnil, hq⟩ | ⟨hq, v, hv, ha⟩⟩ := h
  · refine ⟨.nil, z, ?_, hr, hs⟩
    simp only [itemVal, he, hq, bind_ok, typedAppend, Field.acceptItem, Val.isNil, hnil, hmax, if_true]
    rfl
  · refine ⟨w, z, ?_, hr, hs⟩
    simp only [itemVal, he, hq, bind_ok, typedAppend, hv, ha, hmax, ne_eq, not_true, false_and, if_false]

theorem items_read {N k : Nat} {f : Field} {ns : Str} {qf : Bool} (hk : f.kind = .list) :
    ∀ (block : List Xml) (is : List Val), (∀ x ∈ block, ReadsElem T N k f ns qf x) →
    (∀ m, f.maxOccurs = some (.int m) → ((is.length + block.length : Nat) : Int) ≤ m) →
    ∃ ws zs, foldE (oneVal T (newInst T N) (parseCls T N k) f) (.list true is) block = .ok (.list true (is ++ ws)) ∧
      All2 (fun w z => renderChild (renderCls T k) f f.tag w (some ns) qf = .ok z) ws zs ∧ All2 SameContent zs block
  | [], is, _, _ => ⟨[], [], by simp [foldE], .nil, .nil⟩
  | x :: block, is, h, hm => by
    obtain ⟨w, z, h1, h2, h3⟩ := itemVal_reads (is := is) (h x List.mem_cons_self) (fun m h => by
      have := hm m h; simp only [List.length_cons] at this; omega)
    obtain ⟨ws, zs, h4, h5, h6⟩ := items_read hk block (is ++ [w]) (fun y hy => h y (List.mem_cons_of_mem _ hy)) (fun m h => by
      have := hm m h; simp only [List.length_cons, List.length_append, List.length_nil] at this ⊢; omega)
    refine ⟨w :: ws, z :: zs, ?_, .cons h2 h5, .cons h3 h6⟩
    simp only [foldE, oneVal, if_pos hk, h1, bind_ok]
    rw [h4]; simp

theorem accept_none {st : SType} {b : Atom} (h : st.accept .none = .ok b) : b = .none := by
  cases st <;> exact (Except.ok.inj h).symm

theorem acceptItem_none {f : Field} {v : Val} (h : f.acceptItem T Val.none = .ok v) : v = Val.none := by
  simp only [Field.acceptItem, Val.isNil, Bool.false_eq_true, if_false] at h
  unfold FType.accept at h
  split at h
  · next st _ =>
    cases ha : st.accept Atom.none with
    | error e => simp only [Val.toAtom, ha] at h; cases h
    | ok b =>
      simp only [Val.toAtom, ha] at h
      rw [accept_none ha] at h
      exact (Except.ok.inj h).symm
  · exact acceptCls_id h
  · cases h

/-- A field reads its elements, and writes them. -/
theorem field_reads {N k : Nat} {ns : Str} {qf : Bool} {e : DElement} {f : Field} (hf : ElemField e f)
    (hce : CheckedElement prefixes d e) {block : List Xml} (hall : e.Allows block.length)
    (hb : ∀ x ∈ block, ReadsElem T N k f ns qf x) {ev : Val} (hev : EmptyValue T f ev)
    {x : Xml} (hsub : findSub f x.kids = .ok block) :
    ∃ w p, fieldVal T (newInst T N) (parseCls T N k) f ev x = .ok w ∧
      renderField T (renderCls T k) f w (some ns) qf = .ok p ∧ p.attrs = [] ∧ All2 SameContent p.kids block := by
  obtain ⟨q, hq, _⟩ := hce.type
  have hts : e.type.isSome := by rw [hq]; rfl
  by_cases hM : e.Many
  · obtain ⟨h1, h2, h3, h4⟩ := hf.many hts hM
    rw [EmptyValue, if_pos h1] at hev
    subst hev
    have hmax : ∀ m, f.maxOccurs = some (.int m) → ((block.length : Nat) : Int) ≤ m := by
      intro mx hmx
      have := hall.2
      rw [← h3, hmx] at this
      exact this
    obtain ⟨ws, zs, g1, g2, g3⟩ := items_read h1 block [] hb (by simpa using hmax)
    refine ⟨.list true ws, { kids := zs }, ?_, ?_, rfl, g3⟩
    · simp only [fieldVal, h1, hsub, bind_ok, g1]
      rfl
    · have hlen : ws.length = block.length := by rw [g2.length, g3.length]
      have hmin' : minViolated f.minOccurs ws.length = false := by
        have := hall.1
        rw [h2, hlen]
        unfold minViolated
        cases hm : e.minOccurs with
        | none => rfl
        | some mn =>
          rw [hm] at this
          simp only [Option.getD_some] at this
          simp only [Bool.and_eq_false_iff]
          right
          simp only [decide_eq_false_iff_not]
          omega
      have hmax' : maxViolated f.maxOccurs ws.length = false := by
        unfold maxViolated
        split
        · next mx hmx =>
          have := hmax mx hmx
          simp only [Bool.and_eq_false_iff]
          right
          simp only [decide_eq_false_iff_not]
          omega
        · rfl
      simp only [renderField, h1, renderList, listItems, bind_ok, hmin', hmax', raiseIf, Bool.false_eq_true, if_false,
        mapE_ok_iff.2 g2]
  · obtain ⟨h1, h2, h3⟩ := hf.one hts hM
    have hocc : (e.maxOccurs = none ∨ e.maxOccurs = some (.int 1)) := by
      rcases hce.occurs with ⟨h, _⟩ | h
      · exact absurd h hM
      · exact h.1
    have hle : block.length ≤ 1 := by
      have := hall.2
      rcases hocc with h | h <;> rw [h] at this
      · exact this
      · simp only at this; omega
    match block, hle with
    | [], _ =>
      rw [EmptyValue, if_neg (by rw [h1]; simp), hf.bare.2] at hev
      have := acceptItem_none hev
      subst this
      refine ⟨Val.none, {}, ?_, ?_, rfl, .nil⟩
      · simp only [fieldVal, h1, hsub, bind_ok, foldE]
      · simp only [renderField, h1, Val.isNone, if_true]
    | [y], _ =>
      obtain ⟨w, z, g1, g2, g3, g4⟩ := elemVal_reads (by rw [h1]; simp) (hb y (List.mem_singleton.2 rfl))
      refine ⟨w, { kids := [z] }, ?_, ?_, rfl, .cons g4 .nil⟩
      · simp only [fieldVal, h1, hsub, bind_ok, foldE, oneVal, g1, reduceCtorEq, if_false]
      · have : ¬ w.isNone = true := fun h => g2 (isNone_iff.1 h)
        simp only [renderField, h1, if_neg this, g3, bind_ok]

/-! ### Children and their fields -/

theorem findSub_all {f : Field} {ks : List Xml} (h : ∀ k ∈ ks, k ≠ .pi) : findSub f ks = .ok (ks.filter f.claims) := by
  induction ks with
  | nil => rfl
  | cons x ks ih =>
    have ih' := ih fun k hk => h k (List.mem_cons_of_mem _ hk)
    by_cases hc : f.claims x = true
    · have hc' := claims_bool.1 hc
      obtain ⟨q, a, t, k, rfl, _⟩ := id hc'
      rw [findSub_take hc', ih', List.filter_cons_of_pos hc]
      rfl
    · rw [findSub_skip (fun h => hc (claims_bool.2 h)) (h x List.mem_cons_self), ih', List.filter_cons_of_neg hc]

theorem filter_comments (f : Field) (ks : List Xml) : (withoutComments ks).filter f.claims = ks.filter f.claims := by
  unfold withoutComments
  rw [List.filter_filter]
  refine List.filter_congr fun x _ => ?_
  cases x <;> simp [Field.claims]

theorem pyName_same {a b : Str} (h : a = pyName b) : pyName a = pyName b := by
  subst h
  unfold pyName
  split
  · next hb =>
    rw [if_neg]
    have : ∀ k ∈ kwlist, '_' :: k ∉ kwlist := by decide +kernel
    exact this b hb
  · rfl

theorem tag_name {f : Field} {n : Str} (h1 : f.name = pyName n) (h2 : f.tag = n) {l : Str} (hl : l ≠ [])
    (hc : l = f.name ∨ f.tagname = some l) : pyName l = pyName n := by
  rcases hc with hc | hc
  · exact pyName_same (by rw [hc, h1])
  · unfold Field.tag at h2
    rw [hc] at h2
    cases l with
    | nil => exact absurd rfl hl
    | cons c cs => rw [show n = c :: cs from h2.symm]

theorem filter_block {fs : List Field} {blocks : List (List Xml)}
    (h : All2 (fun (f : Field) block => ∀ x ∈ block, f.claims x = true ∧ ∀ g ∈ fs, g.name ≠ f.name → g.claims x = false) fs blocks)
    (hn : (fs.map (·.name)).Nodup) : blocks = fs.map fun f => blocks.flatten.filter f.claims := by
  have key : ∀ (f : Field) (gs : List Field) (bs : List (List Xml)), All2 (fun (g : Field) block => ∀ x ∈ block, f.claims x = false) gs bs →
      bs.flatten.filter f.claims = [] := by
    intro f gs bs hgs
    rw [List.filter_eq_nil_iff]
    intro x hx
    obtain ⟨b, hb, hxb⟩ := List.mem_flatten.1 hx
    obtain ⟨g, _, hg⟩ := hgs.mem_right hb
    rw [hg x hxb]; simp
  have main : ∀ (pre post : List Field) (p1 p2 : List (List Xml)), fs = pre ++ post → blocks = p1 ++ p2 →
      All2 (fun (f : Field) block => ∀ x ∈ block, f.claims x = true ∧ ∀ g ∈ fs, g.name ≠ f.name → g.claims x = false) pre p1 →
      All2 (fun (f : Field) block => ∀ x ∈ block, f.claims x = true ∧ ∀ g ∈ fs, g.name ≠ f.name → g.claims x = false) post p2 →
      p2 = post.map fun f => blocks.flatten.filter f.claims := by
    intro pre post p1 p2 hfs hbl hpre hpost
    induction hpost generalizing pre p1 with
    | nil => rfl
    | @cons f b post p2 hfb hrest ih =>
      rw [List.map_cons]
      have hfm : f ∈ fs := by rw [hfs]; simp
      have hne : ∀ g ∈ pre ++ post, f.name ≠ g.name := by
        intro g hg e
        rw [hfs, List.map_append, List.map_cons, List.nodup_append] at hn
        rcases List.mem_append.1 hg with hg | hg
        · exact hn.2.2 g.name (List.mem_map.2 ⟨g, hg, rfl⟩) f.name (by simp) e.symm
        · exact (List.nodup_cons.1 hn.2.1).1 (List.mem_map.2 ⟨g, hg, e.symm⟩)
      congr 1
      · rw [hbl, List.flatten_append, List.flatten_cons, List.filter_append, List.filter_append]
        rw [key f pre p1 (hpre.mem.imp fun g b' ⟨hg, _, hb'⟩ x hx => (hb' x hx).2 f hfm (hne g (List.mem_append_left _ hg)))]
        rw [key f post p2 (hrest.mem.imp fun g b' ⟨hg, _, hb'⟩ x hx => (hb' x hx).2 f hfm (hne g (List.mem_append_right _ hg)))]
        rw [List.filter_eq_self.2 fun x hx => (hfb x hx).1]
        simp
      · exact ih (pre ++ [f]) (p1 ++ [b]) (by simp [hfs]) (by simp [hbl]) (hpre.append (.cons hfb .nil))
  exact main [] fs [] blocks rfl rfl .nil h

/-! ### Attributes -/

theorem attr_reads (hm : schemaToPy prefixes digest n parent d = .ok m) (he : execModule vars [] limit m = .ok (env, s))
    (hd : (m.classes.map (·.name)).Nodup) (hmeans : ∀ p t, means p t → PatternAccepts (compile p) t) (hiso : IsoCanonical iso)
    (hrd : ReadDocument prefixes d) {N k : Nat} {ns : Option Str} {qf : Bool} {a : DAttribute} {f : Field} (hf : AttrField a f) {q nm : Str}
    (ht : TypeMeans prefixes d env compile iso q f.type) (hc : CheckedType prefixes d q) (hnm : a.name = some nm)
    (hkw : pyName nm = nm) {x : Xml} (hsome : ∀ t, x.attr ⟨none, nm⟩ = some t → FitsType prefixes d means KeptAttr q t)
    (hnone : x.attr ⟨none, nm⟩ = none → a.use ≠ some py"required") (ev : Val) :
    ∃ w p, fieldVal T (newInst T N) (parseCls T N k) f ev x = .ok w ∧
      renderField T (renderCls T k) f w ns qf = .ok p ∧ p.kids = [] ∧
      p.attrs = ((x.attr ⟨none, nm⟩).map fun t => ((⟨none, nm⟩ : QName), t)).toList := by
  obtain ⟨nm', hn, hname, htag⟩ := hf.name
  rw [hnm] at hn; cases hn
  rw [hkw] at hname
  cases hx : x.attr ⟨none, nm⟩ with
  | none =>
    obtain ⟨st, hst⟩ := checked_simple ht hc
    have hp : st.pythonvalue .none = .ok .none := by cases st <;> rfl
    have ha : st.accept .none = .ok .none := by cases st <;> rfl
    have hreq : f.required = false := by
      cases hr : f.required with
      | false => rfl
      | true => exact absurd (hf.required.1 hr) (hnone hx)
    refine ⟨Val.none, {}, ?_, ?_, rfl, rfl⟩
    · have hv : attrValue f none = .ok .none := by
        simp only [attrValue, hst, hf.bare.2.1]; exact hp
      simp only [fieldVal, hf.kind, attrVal, hst, evaluate, bind_ok, hname, hx, hv, Field.accept, Field.acceptItem,
        Val.isNil, FType.accept, Val.toAtom, ha]
      rfl
    · simp only [renderField, hf.kind, renderAttr, Val.isNone, if_true, hreq, Bool.false_eq_true, if_false]
  | some t =>
    obtain ⟨st, hst, _, hxo, b, w, h1, h2, h3, h4⟩ := fits_reads hm he hd hmeans hiso hrd ht hc (hsome t hx)
    refine ⟨.atom w, { attrs := [(⟨none, nm⟩, t)] }, ?_, ?_, rfl, rfl⟩
    · have hv : attrValue f (some t) = .ok b := by simp only [attrValue, hst]; exact h1
      simp only [fieldVal, hf.kind, attrVal, hst, evaluate, bind_ok, hname, hx, hv, Field.accept, Field.acceptItem,
        Val.isNil, FType.accept, Val.toAtom, h2]
      rfl
    · have hnn : ¬ (Val.atom w).isNone = true := fun h => h3 (by have := isNone_iff.1 h; injection this)
      simp only [renderField, hf.kind, renderAttr, if_neg hnn, Val.isNil, Bool.false_eq_true, if_false, hst, Val.toAtom, h4, bind_ok,
        attrText, xmlText_of hxo, htag]

theorem attrGet_distinct {as : List (QName × Str)} (hd : (as.map (·.1)).Nodup) {q : QName} {t : Str} (h : (q, t) ∈ as) :
    attrGet as q = some t := by
  induction as with
  | nil => cases h
  | cons x r ih =>
    obtain ⟨k, v⟩ := x
    rw [List.map_cons, List.nodup_cons] at hd
    simp only [attrGet]
    rcases List.mem_cons.1 h with e | h
    · cases e; rw [if_pos rfl]
    · rw [if_neg, ih hd.2 h]
      intro e
      subst e
      exact hd.1 (List.mem_map.2 ⟨_, h, rfl⟩)

theorem nodup_of_map {α β : Type} {g : α → β} {l : List α} (h : (l.map g).Nodup) : l.Nodup := by
  induction l with
  | nil => exact List.nodup_nil
  | cons a l ih =>
    rw [List.map_cons, List.nodup_cons] at h
    exact List.nodup_cons.2 ⟨fun hm => h.1 (List.mem_map.2 ⟨a, hm, rfl⟩), ih h.2⟩

/-- Attributes set one by one are those of the element. -/
theorem attrs_perm {as out : List (QName × Str)} (hd : (as.map (·.1)).Nodup) (h : ∀ a, a ∈ out ↔ a ∈ as) :
    (attrSetAll [] out).Perm as := by
  have hk : ((attrSetAll [] out).map (·.1)).Nodup := attrSetAll_keys (by simp)
  refine (List.perm_ext_iff_of_nodup (nodup_of_map hk) (nodup_of_map hd)).2 fun a => ?_
  constructor
  · intro ha
    rcases attrSetAll_mem ha with h' | h'
    · cases h'
    · exact (h a).1 h'
  · intro ha
    obtain ⟨q, t⟩ := a
    obtain ⟨w, hw⟩ := attrGet_setAll_some ((h _).2 ha)
    have hmem := attrGet_mem hw
    have : (q, w) ∈ as := by
      rcases attrSetAll_mem hmem with h' | h'
      · cases h'
      · exact (h _).1 h'
    have h1 := attrGet_distinct hd this
    rw [attrGet_distinct hd ha] at h1
    cases h1
    exact hmem

theorem named_once {α : Type} {name : α → Option Str} {l : List α} (hd : ((l.filterMap name).map pyName).Nodup) {a b : α}
    (ha : a ∈ l) (hb : b ∈ l) {n : Str} (h1 : name a = some n) (h2 : name b = some n) : a = b := by
  induction l with
  | nil => cases ha
  | cons x l ih =>
    have hno : ∀ c ∈ l, name c = some n → name x = some n → False := by
      intro c hc h3 h4
      rw [List.filterMap_cons, h4, List.map_cons, List.nodup_cons] at hd
      exact hd.1 (List.mem_map.2 ⟨n, List.mem_filterMap.2 ⟨c, hc, h3⟩, rfl⟩)
    have hd' : ((l.filterMap name).map pyName).Nodup := by
      rw [List.filterMap_cons] at hd
      split at hd
      · exact hd
      · exact (List.nodup_cons.1 hd).2
    rcases List.mem_cons.1 ha with e1 | ha'
    · rcases List.mem_cons.1 hb with e2 | hb'
      · rw [e1, e2]
      · exact (hno b hb' h2 (by rw [← e1]; exact h1)).elim
    · rcases List.mem_cons.1 hb with e2 | hb'
      · exact (hno a ha' h1 (by rw [← e2]; exact h2)).elim
      · exact ih hd' ha' hb'

/-- Declarations of layers. -/
theorem mem_layers {α : Type} {g : DContent → List α} {cs : List DContent} {a : α} (h : a ∈ (cs.map g).flatten) :
    ∃ c ∈ cs, a ∈ g c := by
  obtain ⟨l, hl, ha⟩ := List.mem_flatten.1 h
  obtain ⟨c, hc, rfl⟩ := List.mem_map.1 hl
  exact ⟨c, hc, ha⟩

theorem CheckedLayers.attribute {cs : List DContent} (h : CheckedLayers prefixes d cs) {a : DAttribute}
    (ha : a ∈ (cs.map (·.attributes)).flatten) : ∃ q, a.type = some q ∧ q ≠ [] ∧ CheckedType prefixes d q := by
  obtain ⟨c, hc, ha⟩ := mem_layers ha
  exact h.attributes c hc a ha

theorem CheckedLayers.element {cs : List DContent} (h : CheckedLayers prefixes d cs) {e : DElement}
    (he : e ∈ (cs.map (·.elements)).flatten) : CheckedElement prefixes d e := by
  obtain ⟨c, hc, he⟩ := mem_layers he
  exact h.elements c hc e he

theorem attrs_nodup {cs : List DContent} (h : (layerNames cs).Nodup) :
    (((cs.map (·.attributes)).flatten.filterMap (·.name)).map pyName).Nodup := by
  refine List.Nodup.sublist ?_ h
  clear h
  induction cs with
  | nil => exact List.Sublist.refl _
  | cons c cs ih =>
    have : layerNames (c :: cs) = c.fieldNames ++ layerNames cs := rfl
    rw [this, List.map_cons, List.flatten_cons, List.filterMap_append, List.map_append]
    refine List.Sublist.append ?_ ih
    unfold DContent.fieldNames
    rw [List.map_append]
    exact List.sublist_append_left _ _

theorem renderFields_of {rc : RenderCls} {vals : List (Str × Val)} {ns : Option Str} {q : Bool} {fs : List Field} {parts : List Out}
    (h : All2 (fun f p => ∃ v, Dict.get? vals f.name = some v ∧ renderField T rc f v ns q = .ok p) fs parts) :
    ∃ o, renderFields T rc vals ns q fs = .ok o ∧ o.kids = (parts.map (·.kids)).flatten ∧ o.attrs = (parts.map (·.attrs)).flatten := by
  induction h with
  | nil => exact ⟨{}, rfl, rfl, rfl⟩
  | @cons f p fs ps hp _ ih =>
    obtain ⟨v, hv, hr⟩ := hp
    obtain ⟨o, h1, h2, h3⟩ := ih
    refine ⟨p.append o, ?_, ?_, ?_⟩
    · simp only [renderFields, getAttr, hv, bind_ok, hr, h1]
    · simp [Out.append, h2]
    · simp [Out.append, h3]

theorem choose_list {α β : Type} {P : α → β → Prop} {L : List α} (h : ∀ a ∈ L, ∃ b, P a b) : ∃ bs, All2 P L bs := by
  induction L with
  | nil => exact ⟨[], .nil⟩
  | cons a L ih =>
    obtain ⟨b, hb⟩ := h a List.mem_cons_self
    obtain ⟨bs, hbs⟩ := ih fun x hx => h x (List.mem_cons_of_mem _ hx)
    exact ⟨b :: bs, .cons hb hbs⟩

theorem all2_map_mem {α β : Type} {R : α → β → Prop} {g : α → β} {L : List α} (h : All2 R L (L.map g)) {a : α} (ha : a ∈ L) :
    R a (g a) := by
  induction L with
  | nil => cases ha
  | cons x L ih =>
    rw [List.map_cons] at h
    cases h with
    | cons h1 h2 =>
      rcases List.mem_cons.1 ha with rfl | ha
      · exact h1
      · exact ih h2 ha

theorem all2_map2 {α β γ δ : Type} {R : γ → δ → Prop} {f : α → γ} {g : β → δ} {as : List α} {bs : List β}
    (h : All2 (fun a b => R (f a) (g b)) as bs) : All2 R (as.map f) (bs.map g) := by
  induction h with
  | nil => exact .nil
  | cons h _ ih => exact .cons h ih

theorem all2_flat {ps : List (List Xml)} {bs : List (List Xml)} (h : All2 (fun p b => All2 SameContent p b) ps bs) :
    All2 SameContent ps.flatten bs.flatten := by
  induction h with
  | nil => exact .nil
  | cons h _ ih => exact h.append ih

/-! ### Classes -/

theorem exists_bound {l : List Xml} {P : Nat → Xml → Prop} (h : ∀ x ∈ l, ∃ k0, ∀ k, k0 ≤ k → P k x) :
    ∃ k0, ∀ x ∈ l, ∀ k, k0 ≤ k → P k x := by
  induction l with
  | nil => exact ⟨0, nofun⟩
  | cons x l ih =>
    obtain ⟨k1, h1⟩ := h x List.mem_cons_self
    obtain ⟨k2, h2⟩ := ih fun y hy => h y (List.mem_cons_of_mem _ hy)
    refine ⟨max k1 k2, fun y hy k hk => ?_⟩
    rcases List.mem_cons.1 hy with rfl | hy
    · exact h1 k (by omega)
    · exact h2 y hy k (by omega)

theorem childTag_local {f : Field} {e : DElement} (hf : ElemField e f) {nm ns form : Str} (hn : e.name = some nm)
    (hns : d.targetNamespace = some ns) (hne : ns ≠ []) (hform : d.elementFormDefault = some form) :
    childTag f f.tag (some ns) (decide (form = py"qualified")) = localTag d nm := by
  obtain ⟨nm', hn', _, htag⟩ := hf.name
  rw [hn] at hn'; cases hn'
  unfold childTag localTag
  rw [hf.bare.1, htag, hns, hform]
  cases ns with
  | nil => exact absurd rfl hne
  | cons c cs =>
    by_cases h : form = py"qualified"
    · simp [h, QName.mk']
    · have h' : ¬ some form = some py"qualified" := fun e => h (Option.some.inj e)
      rw [decide_eq_false h, if_neg h', if_neg (by simp)]

/-- What an element declaration and its field have in common. -/
def ElemMeans (prefixes : List (Option Str)) (d : DSchema) (env : PyEnv) (compile : Str → Pattern) (iso : Iso) (e : DElement)
    (f : Field) : Prop :=
  ElemField e f ∧ ∀ q, e.type = some q → TypeMeans prefixes d env compile iso q f.type

section
variable (hm : schemaToPy prefixes digest n parent d = .ok m) (he : execModule vars [] limit m = .ok (env, s))
  (hd : (m.classes.map (·.name)).Nodup) (hT : moduleTable compile iso env s = some T)
  (hmeans : ∀ p t, means p t → PatternAccepts (compile p) t) (hiso : IsoCanonical iso) (hrd : ReadDocument prefixes d)
  {ns form : Str} (hns : d.targetNamespace = some ns) (hne : ns ≠ []) (hpn : PlainText '\'' ns)
  (hform : d.elementFormDefault = some form) (hpf : PlainText '\'' form)
include hm he hd hT hmeans hiso hrd hns hne hpn hform hpf

omit hmeans hiso hns hne hpn hform hpf in
/-- The classes can be instantiated. -/
theorem class_new {ct : DComplex} (hct : ct ∈ d.complexTypes) {N : Str} (hN : ct.name = some N) :
    ∃ v, newInst T (limit + 1) (env.idOf (capName N)) = .ok v := by
  obtain ⟨_, cs, hl⟩ := hrd.types ct hct
  have hlay := hrd.layers ct hct cs hl
  obtain ⟨hnd, hcr⟩ := hlay.names
  rcases C86_instances hm he hd hT hct hN hl hlay.plain hnd hcr with ⟨f, hf, hany⟩ | h
  · obtain ⟨hA, hE⟩ := C86_split hm he hd hT hct hN hl hlay.plain hnd hcr
    by_cases hk : f.kind = .attribute
    · obtain ⟨a, ha, _, haT⟩ := hA.mem_right (List.mem_filter.2 ⟨hf, decide_eq_true hk⟩)
      obtain ⟨q, hq, hq0, hck⟩ := hlay.attribute ha
      obtain ⟨st, hst⟩ := checked_simple (haT q hq hq0) hck
      rw [hst] at hany; cases hany
    · obtain ⟨e, hem, _, heT⟩ := hE.mem_right (List.mem_filter.2 ⟨hf, decide_eq_true hk⟩)
      obtain ⟨q, hq, hty⟩ := (hlay.element (List.mem_filter.1 hem).1).type
      rcases hty with hck | ⟨p, l, h3, h4, ct', h5, h6⟩
      · obtain ⟨st, hst⟩ := checked_simple (heT q hq) hck
        rw [hst] at hany; cases hany
      · obtain ⟨_, cs', hl'⟩ := hrd.types ct' h5
        have := (heT q hq).complex p l ct' l cs' h3 h4 h5 hl' h6 rfl
        rw [this] at hany; cases hany
  · exact h

omit hmeans hiso hns hne hpn hform hpf in
theorem elem_evaluates {e : DElement} {f : Field} (hce : CheckedElement prefixes d e)
    (ht : ∀ q, e.type = some q → TypeMeans prefixes d env compile iso q f.type) :
    evaluate (newInst T (limit + 1)) f.type = .ok () := by
  obtain ⟨q, hq, hty⟩ := hce.type
  rcases hty with hck | ⟨p, l, h3, h4, ct', h5, h6⟩
  · obtain ⟨st, hst⟩ := checked_simple (ht q hq) hck
    rw [hst]; rfl
  · obtain ⟨_, cs', hl'⟩ := hrd.types ct' h5
    have := (ht q hq).complex p l ct' l cs' h3 h4 h5 hl' h6 rfl
    rw [this]
    obtain ⟨v, hv⟩ := class_new hm he hd hT hrd h5 h6
    simp only [evaluate, hv]
    rfl

omit hne in
/-- A class reads attributes and children whose elements its fields read. -/
theorem content_of_blocks {ct : DComplex} (hct : ct ∈ d.complexTypes) {N : Str} (hN : ct.name = some N) {k : Nat} {es : List DElement}
    {cs : List DContent} (hl : Layers prefixes d ct cs) (hord : ∀ c ∈ cs, c.all = none ∧ c.choice = none)
    (hel : (cs.map (·.elements)).flatten = es) {as : List (QName × Str)} {ks : List Xml}
    (has : ValidAttributes prefixes d means KeptAttr (cs.map (·.attributes)).flatten as) {afs efs : List Field}
    (hafs : ∀ f, f ∈ afs ↔ f ∈ (T (env.idOf (capName N))).fields ∧ f.kind = .attribute)
    (hefs : efs = (T (env.idOf (capName N))).fields.filter fun f => decide (¬ f.kind = .attribute))
    (hA : All2 (fun a f => AttrField a f ∧ ∀ q, a.type = some q → q ≠ [] → TypeMeans prefixes d env compile iso q f.type)
      (cs.map (·.attributes)).flatten afs)
    (hpi : ∀ x ∈ ks, x ≠ .pi) {blocks : List (List Xml)} (hbl : withoutComments ks = blocks.flatten)
    (hB : All2 (fun f block => ∃ e ∈ es, ElemMeans prefixes d env compile iso e f ∧ e.Allows block.length ∧
      ∀ x ∈ block, (∃ nm a t c, e.name = some nm ∧ x = .elem (localTag d nm) a t c) ∧
        ReadsElem T (limit + 1) k f ns (decide (form = py"qualified")) x) efs blocks) :
    ReadsContent T (limit + 1) (k + 1) (env.idOf (capName N)) (decide (form = py"qualified")) as ks := by
  have hlay := hrd.layers ct hct cs hl
  obtain ⟨hnd, hcr⟩ := hlay.names
  obtain ⟨_, hsch, hch, hhd, hsane⟩ := C86_class hm he hd hT hct hN hl hlay.plain hnd hcr hns hpn hform hpf
  have hchoice : (T (env.idOf (capName N))).choice = false := by
    cases hc : (T (env.idOf (capName N))).choice with
    | false => rfl
    | true =>
      obtain ⟨x, c, y, hcs, hic, _⟩ := hch.1 hc
      have := (hord c (by rw [hcs]; simp)).2
      obtain ⟨_, _, h⟩ := hic
      exact absurd this h
  have hmemf : ∀ f, f ∈ (T (env.idOf (capName N))).fields ↔ f ∈ afs ∨ f ∈ efs := by
    intro f
    rw [hafs, hefs, List.mem_filter, decide_eq_true_iff, ← and_or_left]
    exact ⟨fun h => ⟨h, Classical.em _⟩, fun h => h.1⟩
  obtain ⟨v, hv⟩ := class_new hm he hd hT hrd hct hN
  have hnames := hsane.names (env.idOf (capName N))
  obtain ⟨M, evs, hM, rfl, hshape, _⟩ := newInst_ok hnames hv
  have hefn : (efs.map (·.name)).Nodup := by
    rw [hefs]
    exact List.Nodup.sublist (List.Sublist.map _ List.filter_sublist) hnames
  -- each field finds its block
  have hblocks : blocks = efs.map fun f => blocks.flatten.filter f.claims := by
    refine filter_block (hB.imp_mem ?_) hefn
    rintro f block hfm _ ⟨e, hem, ⟨hef, _⟩, _, hx⟩ x hxb
    obtain ⟨⟨nm, a, t, c, hnm, rfl⟩, _⟩ := hx x hxb
    obtain ⟨nm', hnm', hfn, hft⟩ := hef.name
    rw [hnm] at hnm'; cases hnm'
    have hloc : (localTag d nm).loc = nm := by unfold localTag; split <;> rfl
    have hnm0 : nm ≠ [] := fun e0 => by
      obtain ⟨c, hc, hec⟩ := mem_layers (hel ▸ hem)
      exact hrd.named ct hct cs hl c hc e hec (by rw [hnm, e0])
    refine ⟨?_, ?_⟩
    · rw [claims_bool, Field.Claims]
      refine ⟨_, a, t, c, rfl, ?_⟩
      rw [hloc, ← hft, tag_eq]
      exact tag_claimed f
    · intro g hg hgf
      obtain ⟨bg, hbg, eg, heg, ⟨hegf, _⟩, _⟩ := hB.mem_left hg
      obtain ⟨ng, hng, hgn, hgt⟩ := hegf.name
      cases hcl : g.claims (.elem (localTag d nm) a t c) with
      | false => rfl
      | true =>
        exfalso
        rw [claims_bool] at hcl
        obtain ⟨_, _, _, _, he', hcl⟩ := hcl
        cases he'
        rw [hloc] at hcl
        have := tag_name hgn hgt hnm0 hcl
        exact hgf (by rw [hgn, hfn, this])
  have hB' := hB
  rw [hblocks] at hB'
  intro tag t ns'
  have hsub : ∀ f ∈ efs, findSub f ks = .ok (blocks.flatten.filter f.claims) := by
    intro f _
    rw [findSub_all hpi, ← hbl, filter_comments]
  -- reading and writing field by field
  have hfield : ∀ f ∈ (T (env.idOf (capName N))).fields, ∃ w, ∃ ev p, Dict.get? evs f.name = some ev ∧
      fieldVal T (newInst T (limit + 1)) (parseCls T (limit + 1) k) f ev (.elem tag as t ks) = .ok w ∧
      renderField T (renderCls T k) f w (some ns) (decide (form = py"qualified")) = .ok p ∧
      ((f ∈ afs ∧ p.kids = [] ∧ p.attrs = ((attrGet as ⟨none, f.name⟩).map fun t => ((⟨none, f.name⟩ : QName), t)).toList) ∨
       (f ∈ efs ∧ p.attrs = [] ∧ All2 SameContent p.kids (blocks.flatten.filter f.claims))) := by
    intro f hfm
    obtain ⟨ev, hev⟩ := hshape.get hfm
    rcases (hmemf f).1 hfm with hf | hf
    · obtain ⟨a, ha, haf, haT⟩ := hA.mem_right hf
      obtain ⟨q, hq, hq0, hck⟩ := hlay.attribute ha
      obtain ⟨nm, hnm, hfn, hft⟩ := haf.name
      obtain ⟨c0, hc0, hac0⟩ := mem_layers ha
      have hkw := hrd.keywords ct hct cs hl c0 hc0 a hac0 nm hnm
      rw [hkw] at hfn
      have hnd' := attrs_nodup hnd
      obtain ⟨w, p, h1, h2, h3, h4⟩ := attr_reads (T := T) (N := limit + 1) (k := k) (ns := some ns)
        (qf := decide (form = py"qualified")) (x := .elem tag as t ks) hm he hd hmeans hiso hrd haf (haT q hq hq0) hck hnm hkw
        (by
          intro tx htx
          obtain ⟨decl, hdm, n', q', hn', hq', hk', hfit⟩ := has.declared _ (attrGet_mem htx)
          injection hk' with _ hk'
          subst hk'
          have := named_once hnd' hdm ha hn' hnm
          subst this
          rw [hq] at hq'; cases hq'
          exact hfit)
        (by
          intro hno hreq
          obtain ⟨x, hx, n', hn', hxk⟩ := has.required a ha hreq
          rw [hnm] at hn'; cases hn'
          obtain ⟨k', v'⟩ := x
          cases hxk
          have := attrGet_distinct has.distinct hx
          have h' : attrGet as ⟨none, nm⟩ = none := hno
          rw [h'] at this; cases this) ev
      refine ⟨w, ev, p, hev, h1, h2, .inl ⟨hf, h3, ?_⟩⟩
      rw [hfn]; exact h4
    · obtain ⟨e, hem, ⟨hef, heT⟩, hall, hx⟩ := all2_map_mem hB' hf
      have hce := hlay.element (hel ▸ hem)
      obtain ⟨q, hq, _⟩ := hce.type
      have hts : e.type.isSome := by rw [hq]; rfl
      have hkind : f.kind ≠ .ref ∧ f.kind ≠ .content := by
        by_cases hM : e.Many
        · rw [(hef.many hts hM).1]; simp
        · rw [(hef.one hts hM).1]; simp
      obtain ⟨ev', hev', hemp⟩ := newInst_empty hnames hv hfm hkind
      rw [hev] at hev'; cases hev'
      obtain ⟨w, p, h1, h2, h3, h4⟩ := field_reads (T := T) (N := limit + 1) (k := k) (ns := ns) (x := .elem tag as t ks) hef hce hall
        (fun x hxb => (hx x hxb).2) hemp (hsub f hf)
      exact ⟨w, ev, p, hev, h1, h2, .inr ⟨hf, h3, h4⟩⟩
  have hdis : ∀ f, f ∈ afs → f ∈ efs → False := by
    intro f h1 h2
    rw [hefs] at h2
    exact of_decide_eq_true (List.mem_filter.1 h2).2 ((hafs f).1 h1).2
  obtain ⟨dict, hdict⟩ := choose_dict hfield
  obtain ⟨hd1, hd2⟩ := zip_get (P := fun f w => ∃ ev p, Dict.get? evs f.name = some ev ∧
      fieldVal T (newInst T (limit + 1)) (parseCls T (limit + 1) k) f ev (.elem tag as t ks) = .ok w ∧
      renderField T (renderCls T k) f w (some ns) (decide (form = py"qualified")) = .ok p ∧
      ((f ∈ afs ∧ p.kids = [] ∧ p.attrs = ((attrGet as ⟨none, f.name⟩).map fun t => ((⟨none, f.name⟩ : QName), t)).toList) ∨
       (f ∈ efs ∧ p.attrs = [] ∧ All2 SameContent p.kids (blocks.flatten.filter f.claims)))) hdict hnames
  have hparse : parseCls T (limit + 1) (k + 1) (env.idOf (capName N)) (.elem tag as t ks) =
      .ok (.inst (env.idOf (capName N)) dict (some (.elem tag as t ks))) := by
    refine (parseCls_ok_iff hnames hchoice).2 ⟨evs, dict, hv, rfl, hd1, fun f hf => ?_⟩
    obtain ⟨w, hw, ev, p, h1, h2, _⟩ := hd2 f hf
    exact ⟨ev, w, h1, h2, hw⟩
  obtain ⟨parts, hparts⟩ : ∃ parts, All2 (fun (f : Field) (p : Out) => (∃ w, Dict.get? dict f.name = some w ∧
      renderField T (renderCls T k) f w (some ns) (decide (form = py"qualified")) = .ok p) ∧
      ((f ∈ afs ∧ p.kids = [] ∧ p.attrs = ((attrGet as ⟨none, f.name⟩).map fun t => ((⟨none, f.name⟩ : QName), t)).toList) ∨
       (f ∈ efs ∧ p.attrs = [] ∧ All2 SameContent p.kids (blocks.flatten.filter f.claims))))
      (T (env.idOf (capName N))).fields parts := by
    refine choose_list fun f hf => ?_
    obtain ⟨w, hw, ev, p, _, _, h3, h4⟩ := hd2 f hf
    exact ⟨p, ⟨w, hw, h3⟩, h4⟩
  obtain ⟨o, ho, hok, hoa⟩ := renderFields_of (hparts.imp fun _ _ h => h.1)
  obtain ⟨pa, pe, hpa, hpe, hmemp, hkd⟩ := split_parts (fun f : Field => decide (f.kind = .attribute)) hparts
  have hcomm : ((T (env.idOf (capName N))).fields.filter fun f => !decide (f.kind = .attribute)) = efs := by
    rw [hefs]
    exact List.filter_congr fun f _ => by simp only [decide_not]
  rw [hcomm] at hpe
  have hpa := hpa.imp_mem (S := fun f p => p.kids = [] ∧
      p.attrs = ((attrGet as ⟨none, f.name⟩).map fun t => ((⟨none, f.name⟩ : QName), t)).toList) (by
    rintro f hf p _ ⟨_, ⟨_, h4, h5⟩ | ⟨h4, _⟩⟩
    · exact ⟨h4, h5⟩
    · exact (hdis f ((hafs f).2 ⟨(List.mem_filter.1 hf).1, of_decide_eq_true (List.mem_filter.1 hf).2⟩) h4).elim)
  have hpe := hpe.imp_mem (S := fun f p => p.attrs = [] ∧ All2 SameContent p.kids (blocks.flatten.filter f.claims)) (by
    rintro f hf p _ ⟨_, ⟨h4, _⟩ | ⟨_, h4, h5⟩⟩
    · exact (hdis f h4 hf).elim
    · exact ⟨h4, h5⟩)
  refine ⟨dict, o, hparse, ?_, attrs_perm has.distinct ?_, ?_⟩
  · have hin : innerNs T (env.idOf (capName N)) ns' = some ns := by unfold innerNs; rw [hsch]
    simp only [renderCls, hhd, Bool.false_eq_true, false_and, if_false, hin]
    exact ho
  · intro a
    rw [hoa, List.mem_flatten]
    constructor
    · rintro ⟨l, hl, hal⟩
      obtain ⟨p, hpm, rfl⟩ := List.mem_map.1 hl
      rcases (hmemp p).1 hpm with hpm | hpm
      · obtain ⟨f, _, _, h5⟩ := hpa.mem_right hpm
        rw [h5] at hal
        cases hg : attrGet as ⟨none, f.name⟩ with
        | none => rw [hg] at hal; cases hal
        | some tx =>
          rw [hg] at hal
          rcases List.mem_singleton.1 hal with rfl
          exact attrGet_mem hg
      · obtain ⟨f, _, h5, _⟩ := hpe.mem_right hpm
        rw [h5] at hal; cases hal
    · intro ha
      obtain ⟨decl, hdm, n', q', hn', hq', hk', _⟩ := has.declared _ ha
      obtain ⟨f, hfm, haf, _⟩ := hA.mem_left hdm
      obtain ⟨p, hpm, _, h5⟩ := hpa.mem_left (List.mem_filter.2 ⟨((hafs f).1 hfm).1, decide_eq_true ((hafs f).1 hfm).2⟩)
      obtain ⟨nm, hnm, hfn, _⟩ := haf.name
      rw [hn'] at hnm; cases hnm
      obtain ⟨c0, hc0, hdc0⟩ := mem_layers hdm
      rw [hrd.keywords ct hct cs hl c0 hc0 decl hdc0 n' hn'] at hfn
      refine ⟨p.attrs, List.mem_map.2 ⟨p, (hmemp p).2 (.inl hpm), rfl⟩, ?_⟩
      obtain ⟨ka, va⟩ := a
      cases hk'
      rw [h5, hfn, attrGet_distinct has.distinct ha]
      exact List.mem_singleton.2 rfl
  · have hz : ∀ p ∈ pa, p.kids = [] := by
      intro p hpm
      obtain ⟨_, _, hk, _⟩ := hpa.mem_right hpm
      exact hk
    rw [hok, hkd hz, hbl]
    have : All2 (fun p b => All2 SameContent p b) (pe.map (·.kids)) (efs.map fun f => blocks.flatten.filter f.claims) := by
      have h1 : All2 (fun (p : Out) (f : Field) => All2 SameContent p.kids (blocks.flatten.filter f.claims)) pe efs :=
        (hpe.imp fun _ _ h => h.2).flip
      exact all2_map2 h1
    rw [← hblocks] at this
    exact all2_flat this

mutual
/-- Valid attributes and children are read. -/
theorem content_reads {ct : DComplex} {as : List (QName × Str)} {ks : List Xml} (hct : ct ∈ d.complexTypes) {N : Str}
    (hN : ct.name = some N) : ValidContent prefixes d means KeptAttr Kept ct as ks →
    ∃ k0, ∀ k, k0 ≤ k → ReadsContent T (limit + 1) k (env.idOf (capName N)) (decide (form = py"qualified")) as ks
  | .sequence (cs := cs) hl hord has hseq => by
    have hlay := hrd.layers ct hct cs hl
    obtain ⟨hnd, hcr⟩ := hlay.names
    obtain ⟨hA, hE⟩ := C86_split hm he hd hT hct hN hl hlay.plain hnd hcr
    have htyped : (cs.map (·.elements)).flatten.filter (·.typed) = (cs.map (·.elements)).flatten := by
      refine List.filter_eq_self.2 fun e hmem => ?_
      obtain ⟨q, hq, _⟩ := (hlay.element hmem).type
      unfold DElement.typed
      rw [hq]; rfl
    rw [htyped] at hE
    obtain ⟨k0, blocks, hbl, hB⟩ := sequence_reads (fun e hem => hlay.element hem) hE hseq
    refine ⟨k0 + 1, fun k hk => ?_⟩
    obtain ⟨k', rfl⟩ : ∃ k', k = k' + 1 := ⟨k - 1, by omega⟩
    refine content_of_blocks hm he hd hT hmeans hiso hrd hns hpn hform hpf hct hN hl hord rfl has
      (fun f => by rw [List.mem_filter, decide_eq_true_iff]) rfl hA ?_ hbl (hB.imp ?_)
    · rintro x hx rfl
      have : Xml.pi ∈ withoutComments ks := List.mem_filter.2 ⟨hx, rfl⟩
      rw [hbl, List.mem_flatten] at this
      obtain ⟨b, hb, hxb⟩ := this
      obtain ⟨_, _, e, _, _, _, hx⟩ := hB.mem_right hb
      obtain ⟨⟨_, _, _, _, _, h⟩, _⟩ := hx _ hxb
      cases h
    · rintro f block ⟨e, hem, hef, hall, hx⟩
      exact ⟨e, hem, hef, hall, fun x hxb => ⟨(hx x hxb).1, (hx x hxb).2 k' (by omega)⟩⟩
/-- Valid children are read. -/
theorem sequence_reads {es : List DElement} {ks : List Xml} (hce : ∀ e ∈ es, CheckedElement prefixes d e) {fs : List Field}
    (hE : All2 (fun e f => ElemField e f ∧ ∀ q, e.type = some q → TypeMeans prefixes d env compile iso q f.type) es fs) :
    ValidSequence prefixes d means KeptAttr Kept es ks →
    ∃ k0 blocks, ks = blocks.flatten ∧
      All2 (fun f (block : List Xml) => ∃ e ∈ es, ElemMeans prefixes d env compile iso e f ∧ e.Allows block.length ∧
        ∀ x ∈ block, (∃ nm a t c, e.name = some nm ∧ x = .elem (localTag d nm) a t c) ∧
          ∀ k, k0 ≤ k → ReadsElem T (limit + 1) k f ns (decide (form = py"qualified")) x) fs blocks
  | .nil => by
    cases hE
    exact ⟨0, [], rfl, .nil⟩
  | .cons (e := e) (es := es') (block := block) (rest := rest) hb hall hr => by
    cases hE with
    | @cons _ f _ fs hef hE =>
      obtain ⟨k1, blocks, h1, h2⟩ := sequence_reads (fun e' he' => hce e' (List.mem_cons_of_mem _ he')) hE hr
      obtain ⟨k2, h3⟩ := exists_bound (l := block)
        (P := fun k x => ReadsElem T (limit + 1) k f ns (decide (form = py"qualified")) x)
        fun x hx => element_reads (hce e List.mem_cons_self) hef.1 hef.2 (hb x hx)
      refine ⟨max k1 k2, block :: blocks, by rw [List.flatten_cons, h1], .cons ?_ (h2.imp ?_)⟩
      · refine ⟨e, List.mem_cons_self, hef, hall, fun x hx => ⟨?_, fun k hk => h3 x hx k (by omega)⟩⟩
        obtain ⟨nm, hnm, _⟩ := hef.1.name
        obtain ⟨a, t, c, hxe⟩ := valid_name (hb x hx) hnm
        exact ⟨nm, a, t, c, hnm, hxe⟩
      · rintro g b ⟨e', he', hg, hal, hx⟩
        exact ⟨e', List.mem_cons_of_mem _ he', hg, hal, fun x hxb => ⟨(hx x hxb).1, fun k hk => (hx x hxb).2 k (by omega)⟩⟩
/-- A valid element is read. -/
theorem element_reads {e : DElement} {x : Xml} (hce : CheckedElement prefixes d e) {f : Field} (hf : ElemField e f)
    (ht : ∀ q, e.type = some q → TypeMeans prefixes d env compile iso q f.type) :
    ValidElement prefixes d means KeptAttr Kept e x →
    ∃ k0, ∀ k, k0 ≤ k → ReadsElem T (limit + 1) k f ns (decide (form = py"qualified")) x
  | .nil (n := nm) hnm hnil => by
    refine ⟨0, fun k _ => ⟨elem_evaluates hm he hd hT hrd hce ht, .nil, .elem (localTag d nm) [(qNil, py"true")] none [], by simp, ?_,
      .elem (List.Perm.refl _) (.inl rfl) .nil, .inl ⟨rfl, ?_, rfl⟩⟩⟩
    · simp only [renderChild, Val.isNil, if_true, childTag_local hf hnm hns hne hform]
      rfl
    · obtain ⟨q, hq, _⟩ := hce.type
      have hts : e.type.isSome := by rw [hq]; rfl
      rw [← hnil]
      by_cases hM : e.Many
      · exact (hf.many hts hM).2.2.2
      · exact (hf.one hts hM).2.2
  | .text (n := nm) (q := q) (t := t) hnm hq hfit => by
    have hck : CheckedType prefixes d q := by
      obtain ⟨q', hq', hty⟩ := hce.type
      rw [hq] at hq'; cases hq'
      rcases hty with h | ⟨p, l, h3, h4, ct', h5, h6⟩
      · exact h
      · exfalso
        obtain ⟨_, cs', hl'⟩ := hrd.types ct' h5
        have hcx := (ht q hq).complex p l ct' l cs' h3 h4 h5 hl' h6 rfl
        cases hfit with
        | builtin g1 g2 =>
          have := h3.split.symm.trans g1.split
          cases this
          exact h4 g2
        | derived g1 g2 g3 g4 =>
          obtain ⟨_, _, _, g5, _⟩ := (ht q hq).simple _ _ _ _ g1 g2 g3 (kept_builtin (.kept g4))
          rw [hcx] at g5; cases g5
    have hne' := fits_not_empty hfit
    cases t with
    | none => exact absurd rfl hne'
    | some tx =>
      obtain ⟨st, hst, hxa, hxo, a, b, h1, h2, h3, h4⟩ := fits_reads hm he hd hmeans hiso hrd (ht q hq) hck (fits_attr hfit)
      refine ⟨0, fun k _ => ⟨elem_evaluates hm he hd hT hrd hce ht, .atom b, .elem (localTag d nm) [] (some tx) [], ?_, ?_,
        .elem (List.Perm.refl _) (.inl rfl) .nil, .inr ⟨rfl, .atom a, ?_, ?_⟩⟩⟩
      · intro h; exact h3 (by injection h)
      · simp only [renderChild, Val.isNil, Bool.false_eq_true, if_false, hst, renderType, Val.toAtom, h4, bind_ok, optText,
          xmlText_of hxo, Except.map, hxa, childTag_local hf hnm hns hne hform]
        rfl
      · simp only [hst, parseType]
        have h1' : st.pythonvalue (.str tx) = .ok a := h1
        show (st.pythonvalue (.str tx)).map _ = _
        rw [h1']; rfl
      · simp only [Field.acceptItem, Val.isNil, Bool.false_eq_true, if_false, hst, FType.accept, Val.toAtom, h2]
        rfl
  | .content (n := nm) (q := q) (l := l) (ct := ct) (as := as) (t := t) (ks := ks) hnm hq h1 h2 h3 h4 h5 h6 => by
    obtain ⟨k0, hk⟩ := content_reads h3 h4 h6
    obtain ⟨_, cs', hl'⟩ := hrd.types ct h3
    have hcx := (ht q hq).complex _ l ct l cs' h1 h2 h3 hl' h4 rfl
    refine ⟨k0, fun k hkk => ?_⟩
    obtain ⟨fs, o, g1, g2, g3, g4⟩ := hk k hkk (localTag d nm) t (some ns)
    refine ⟨elem_evaluates hm he hd hT hrd hce ht, .inst (env.idOf (capName l)) fs (some (.elem (localTag d nm) as t ks)),
      mkElem (localTag d nm) o none, by simp, ?_, .elem g3 (.inr ⟨rfl, h5⟩) g4, .inr ⟨?_,
      .inst (env.idOf (capName l)) fs (some (.elem (localTag d nm) as t ks)), ?_, ?_⟩⟩
    · have hcn : childNs f (some ns) = some ns := by unfold childNs; rw [hf.bare.1]
      simp only [renderChild, Val.isNil, Bool.false_eq_true, if_false, hcx, renderType, hcn, g2, bind_ok,
        childTag_local hf hnm hns hne hform]
    · obtain ⟨decls, has⟩ : ∃ decls, ValidAttributes prefixes d means KeptAttr decls as := by cases h6; exact ⟨_, by assumption⟩
      refine attrGet_none fun a ha e => ?_
      obtain ⟨_, _, _, _, _, _, hk', _⟩ := has.declared a ha
      rw [hk'] at e; cases e
    · simp only [hcx, parseType]
      exact g1
    · have hck := hrd.layers ct h3 cs' hl'
      obtain ⟨_, _, _, _, hsane⟩ := C86_class hm he hd hT h3 h4 hl' hck.plain hck.names.1 hck.names.2 hns hpn hform hpf
      simp only [Field.acceptItem, Val.isNil, Bool.false_eq_true, if_false, hcx, FType.accept]
      exact same_accept_inst (hsane.self _) rfl
end

/-- **C88.** Take an XSD document whose rules the generated code checks, import the generated code, and read an element whose
attributes and children are valid for a complex type, with texts that are kept: reading gives an instance of the class, and
writing this instance gives an element with the same content.  `k` bounds the depth of the document. -/
theorem C88_reads {ct : DComplex} (hct : ct ∈ d.complexTypes) {N : Str} (hN : ct.name = some N) {tag : Str}
    {as : List (QName × Str)} {t : Option Str} {ks : List Xml} (ht : BlankText t)
    (hv : ValidContent prefixes d means KeptAttr Kept ct as ks) :
    ∃ k0, ∀ k, k0 ≤ k → ∃ v z, parseCls T (limit + 1) k (env.idOf (capName N)) (.elem ⟨some ns, tag⟩ as t ks) = .ok v ∧
      toXml T k v tag (some ns) (decide (form = py"qualified")) = .ok z ∧ SameContent z (.elem ⟨some ns, tag⟩ as t ks) := by
  obtain ⟨k0, h⟩ := content_reads hm he hd hT hmeans hiso hrd hns hne hpn hform hpf hct hN hv
  refine ⟨k0, fun k hk => ?_⟩
  obtain ⟨fs, o, h1, h2, h3, h4⟩ := h k hk ⟨some ns, tag⟩ t (some ns)
  refine ⟨_, mkElem ⟨some ns, tag⟩ o none, h1, ?_, .elem h3 (.inr ⟨rfl, ht⟩) h4⟩
  have hq : QName.mk' (some ns) tag = ⟨some ns, tag⟩ := by
    cases ns with
    | nil => exact absurd rfl hne
    | cons c cs => rfl
  simp only [toXml, h2, bind_ok, hq]

end
end

/-! ### Examples -/

namespace Ex

theorem allows_one {e : DElement} (h1 : e.minOccurs = none) (h2 : e.maxOccurs = none) (x : Xml) : e.Allows [x].length := by
  unfold DElement.Allows
  rw [h1, h2]
  exact ⟨by simp, by simp⟩

theorem order_read : ReadDocument [some py"xs"] orderDoc where
  toCheckedDocument := order_checked
  keywords := by
    intro ct h cs hl c hc a ha n hn
    simp only [orderDoc, List.mem_cons, List.not_mem_nil, or_false] at h
    rcases h with rfl | rfl
    · cases layers_plain hl rfl
      cases List.mem_singleton.1 hc
      cases List.mem_singleton.1 ha
      cases Option.some.inj hn
      decide
    · cases layers_plain hl rfl
      cases List.mem_singleton.1 hc
      cases ha
  named := by
    intro ct h cs hl
    simp only [orderDoc, List.mem_cons, List.not_mem_nil, or_false] at h
    rcases h with rfl | rfl
    · cases layers_plain hl rfl
      decide
    · cases layers_plain hl rfl
      decide
  different := by
    intro st h st' h'
    simp only [orderDoc, List.mem_cons, List.not_mem_nil, or_false] at h h'
    subst h; subst h'
    intros; rfl

theorem order_code_iso : ∃ m env s, schemaToPy [some py"xs"] (fun _ => py"01234") 5 none orderDoc = .ok m ∧
    execModule [] [] 10 m = .ok (env, s) ∧ (m.classes.map (·.name)).Nodup ∧
    moduleTable (fun _ => intPattern) isoRef env s = some orderTable ∧
    env.idOf py"Order" = 0 ∧ env.idOf py"Item" = 1 :=
  ⟨_, _, _, rfl, rfl, by decide, rfl, rfl, rfl⟩

/-- An item with white space and comments between its children. -/
def spacedItem (s : Str) : Xml :=
  .elem ⟨some py"urn:o", py"item"⟩ [(⟨none, py"id"⟩, py"i1")] (some py"\n  ")
    [sizeXml s, .comment, noCount, .elem ⟨some py"urn:o", py"gift"⟩ [] (some py"true") [], .comment]

theorem spacedItem_valid (means : Str → Str → Prop) {t : Str} (ht : t = py"S" ∨ t = py"M") :
    ValidElement [some py"xs"] orderDoc means KeptAttr Kept
      { name := some py"item", type := some py"o:item", minOccurs := some 1, maxOccurs := some .unbounded } (spacedItem t) := by
  refine .content (e := { name := some py"item", type := some py"o:item", minOccurs := some 1, maxOccurs := some .unbounded })
    (n := py"item") (q := py"o:item") (p := some ['o']) (l := py"item") (ct := orderDoc.complexTypes[0]) rfl rfl
    (.prefixed (p := ['o']) (l := py"item") (by decide) (by decide)) (by decide) (by decide) rfl ?_ ?_
  · intro s hs
    cases Option.some.inj hs
    decide
  · refine .sequence (.own rfl) (fun c hc => by cases List.mem_singleton.1 hc; exact ⟨rfl, rfl⟩) ⟨?_, by decide, ?_⟩ ?_
    · intro a ha
      cases List.mem_singleton.1 ha
      exact ⟨_, List.mem_cons_self .., py"id", py"xs:string", rfl, rfl, rfl,
        .builtin (p := some py"xs") (l := py"string") (b := .string) (.prefixed (p := py"xs") (l := py"string") (by decide) (by decide))
          (by decide) rfl (.kept (.string (by decide) (by unfold XmlOk; decide)))⟩
    · intro decl hd _
      cases List.mem_singleton.1 hd
      exact ⟨_, List.mem_cons_self .., py"id", rfl, rfl⟩
    · refine .cons (block := [_]) (rest := [_, _]) (fun x hx => ?_) (allows_one rfl rfl _)
        (.cons (block := [_]) (rest := [_]) (fun x hx => ?_) ⟨by decide, by decide⟩
          (.cons (block := [_]) (rest := []) (fun x hx => ?_) ⟨by decide, by decide⟩ .nil))
      · cases List.mem_singleton.1 hx
        refine .text (n := py"size") (q := py"o:size") (t := some t) rfl rfl
          (.derived (p := some ['o']) (l := py"size") (b := .string) (rs := [_]) (.prefixed (p := ['o']) (l := py"size") (by decide) (by decide)) (by decide)
            (.first (st := orderDoc.simpleTypes[0]) (n := py"size") (by decide) rfl rfl rfl
              (.prefixed (p := py"xs") (l := py"string") (by decide) (by decide)) (by decide) rfl) ?_ ?_)
        · rcases ht with rfl | rfl <;> exact .string (by decide) (by unfold XmlOk; decide)
        · intro r hr
          cases List.mem_singleton.1 hr
          refine ⟨⟨by decide, by decide⟩, fun _ => ?_, fun p hp => by cases hp⟩
          rcases ht with rfl | rfl <;> decide
      · cases List.mem_singleton.1 hx
        exact .nil (n := py"count") rfl rfl
      · cases List.mem_singleton.1 hx
        exact .text (n := py"gift") (q := py"xs:boolean") (t := some py"true") rfl rfl
          (.builtin (p := some py"xs") (l := py"boolean") (b := .boolean) (.prefixed (p := py"xs") (l := py"boolean") (by decide) (by decide))
            (by decide) rfl .true)

/-- An order with comments and white space is read, and written with the same content. -/
example : ∃ k0, ∀ k, k0 ≤ k → ∃ v z,
    parseCls orderTable 11 k 0 (.elem ⟨some py"urn:o", py"order"⟩ [] none [.comment, spacedItem py"S", spacedItem py"M"]) = .ok v ∧
    toXml orderTable k v py"order" (some py"urn:o") true = .ok z ∧
    SameContent z (.elem ⟨some py"urn:o", py"order"⟩ [] none [.comment, spacedItem py"S", spacedItem py"M"]) := by
  obtain ⟨m, env, s, h1, h2, h3, h4, h5, h6⟩ := order_code_iso
  have h := C88_reads h1 h2 h3 h4 (means := fun _ t => PatternAccepts intPattern t) (fun _ _ h => h) isoRef_canonical order_read
    (ns := py"urn:o") rfl (by decide) (by unfold PlainText; decide) (form := py"qualified") rfl (by unfold PlainText; decide)
    (ct := orderDoc.complexTypes[1]) (by decide) (N := py"order") rfl (tag := py"order") (as := []) (t := none)
    (ks := [.comment, spacedItem py"S", spacedItem py"M"]) (fun s hs => by cases hs)
    (.sequence (.own rfl) (fun c hc => by cases List.mem_singleton.1 hc; exact ⟨rfl, rfl⟩) ⟨fun a ha => (by cases ha), by decide, fun a ha => (by cases ha)⟩
      (.cons (block := [_, _]) (rest := []) (fun x hx => by
        simp only [List.mem_cons, List.not_mem_nil, or_false] at hx
        rcases hx with rfl | rfl
        · exact spacedItem_valid _ (.inl rfl)
        · exact spacedItem_valid _ (.inr rfl)) ⟨by decide, trivial⟩
        (.cons (block := []) (rest := []) (fun x hx => by cases hx) ⟨by decide, by decide⟩ .nil)))
  rw [show capName py"order" = py"Order" from rfl, h5] at h
  exact h

/-- What is written for this order. -/
example : ∃ v, parseCls orderTable 11 9 0 (.elem ⟨some py"urn:o", py"order"⟩ [] none [.comment, spacedItem py"S", spacedItem py"M"]) = .ok v ∧
    toXml orderTable 9 v py"order" (some py"urn:o") true = .ok (.elem ⟨some py"urn:o", py"order"⟩ [] none
      [itemXml (sizeXml py"S") noCount, itemXml (sizeXml py"M") noCount]) := ⟨_, rfl, rfl⟩

/-- Memos: a text that is required, and an attribute with the name of a keyword. -/
def memoDoc : DSchema where
  targetNamespace := some py"urn:o"
  elementFormDefault := some py"qualified"
  complexTypes :=
    [{ name := some py"memo"
       content := { sequence := some [{ name := some py"text", type := some py"xs:string" }]
                    attributes := [{ name := some py"class", type := some py"xs:string" }] } }]

def textXml (t : Option Str) : Xml := .elem ⟨some py"urn:o", py"text"⟩ [] t []

theorem memo_valid (means : Str → Str → Prop) (c : List (QName × Str)) (hc : c = [] ∨ c = [(⟨none, py"class"⟩, py"x")]) (t : Option Str) :
    ValidContent [some py"xs"] memoDoc means Lexical Lexical memoDoc.complexTypes[0] c [textXml t] := by
  refine .sequence (.own rfl) (fun c hc => by cases List.mem_singleton.1 hc; exact ⟨rfl, rfl⟩) ⟨?_, ?_, ?_⟩ (.cons (block := [_]) (rest := []) (fun x hx => ?_) (allows_one rfl rfl _) .nil)
  · intro a ha
    rcases hc with rfl | rfl
    · cases ha
    · cases List.mem_singleton.1 ha
      exact ⟨_, List.mem_cons_self .., py"class", py"xs:string", rfl, rfl, rfl,
        .builtin (p := some py"xs") (l := py"string") (b := .string) (.prefixed (p := py"xs") (l := py"string") (by decide) (by decide))
          (by decide) rfl .string⟩
  · rcases hc with rfl | rfl <;> decide
  · intro decl hd hu
    cases List.mem_singleton.1 hd
    cases hu
  · cases List.mem_singleton.1 hx
    exact .text (n := py"text") (q := py"xs:string") (t := t) rfl rfl
      (.builtin (p := some py"xs") (l := py"string") (b := .string) (.prefixed (p := py"xs") (l := py"string") (by decide) (by decide))
        (by decide) rfl .string)

/-- Without the restriction to texts that are kept, C88 is false: an element with an empty text is valid and is read, but it is
lost when the instance is written; the result is not valid. -/
theorem C88_empty_text (means : Str → Str → Prop) : ∃ m env s T v,
    schemaToPy [some py"xs"] (fun _ => py"01234") 5 none memoDoc = .ok m ∧ execModule [] [] 10 m = .ok (env, s) ∧
    moduleTable (fun _ => intPattern) isoRef env s = some T ∧
    ValidContent [some py"xs"] memoDoc means Lexical Lexical memoDoc.complexTypes[0] [] [textXml none] ∧
    parseCls T 11 5 (env.idOf py"Memo") (.elem ⟨some py"urn:o", py"memo"⟩ [] none [textXml none]) = .ok v ∧
    toXml T 5 v py"memo" (some py"urn:o") true = .ok (.elem ⟨some py"urn:o", py"memo"⟩ [] none []) ∧
    ∀ as, ¬ ValidContent [some py"xs"] memoDoc means Lexical Lexical memoDoc.complexTypes[0] as [] := by
  refine ⟨_, _, _, _, _, rfl, rfl, rfl, memo_valid means [] (.inl rfl) none, rfl, rfl, fun as h => ?_⟩
  cases h with
  | sequence hl _ _ h =>
    cases layers_plain hl rfl
    obtain ⟨x, xs, hx, hv⟩ := valid_first h rfl
    cases hx

/-- Without the condition on the names of attributes, C88 is false: an attribute named after a keyword is lost. -/
theorem C88_keyword_attribute (means : Str → Str → Prop) : ∃ m env s T v,
    schemaToPy [some py"xs"] (fun _ => py"01234") 5 none memoDoc = .ok m ∧ execModule [] [] 10 m = .ok (env, s) ∧
    moduleTable (fun _ => intPattern) isoRef env s = some T ∧
    ValidContent [some py"xs"] memoDoc means Lexical Lexical memoDoc.complexTypes[0] [(⟨none, py"class"⟩, py"x")] [textXml (some py"hi")] ∧
    parseCls T 11 5 (env.idOf py"Memo") (.elem ⟨some py"urn:o", py"memo"⟩ [(⟨none, py"class"⟩, py"x")] none [textXml (some py"hi")]) = .ok v ∧
    toXml T 5 v py"memo" (some py"urn:o") true = .ok (.elem ⟨some py"urn:o", py"memo"⟩ [] none [textXml (some py"hi")]) :=
  ⟨_, _, _, _, _, rfl, rfl, rfl, memo_valid means _ (.inr rfl) _, rfl, rfl⟩

end Ex
end Soapfish
