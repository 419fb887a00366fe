import Verif.RunInPlace
import Verif.Props.Strings
import Verif.Props.Integers
import Verif.Props.Numbers
/-
What the types in generated code accept: C84.
-/
set_option maxRecDepth 8000
namespace Soapfish
open Spec (PatternAccepts StrOk LenOk InRange Satisfies IntArgs given)

section
variable {prefixes : List (Option Str)} {digest : Str → Str} {n limit : Nat} {parent : Option Str} {d : DSchema}
  {m : PyModule} {vars : SchemaVars} {env : PyEnv} {s : GSchema}

theorem textList_str (l : List Str) : textList? (l.map Atom.str) = some l := by
  induction l with
  | nil => rfl
  | cons a l ih => show (textList? (l.map Atom.str)).map _ = _; rw [ih]; rfl

theorem textObeys_iff (compile : Str → Pattern) (rs : List DRestriction) (hp : ∀ r ∈ rs, PlainFacets r) (t : Str) :
    StrOk {} { pattern := (nonEmpty ((rs.findSome? fun r => r.pattern).map textOf)).map compile
               enumeration := (enumerationOf rs).map (·.map textOf) } t ↔ TextObeys compile rs t := by
  have hpat : ∀ p, nonEmpty ((rs.findSome? fun r => r.pattern).map textOf) = some p ↔ patternOf rs = some p ∧ p ≠ [] := by
    intro p
    unfold patternOf
    cases hf : rs.findSome? fun r => r.pattern with
    | none => simp [nonEmpty]
    | some v =>
      obtain ⟨r, hr, hv⟩ := List.exists_of_findSome?_eq_some hf
      obtain ⟨q, rfl, _⟩ := (hp r hr).2 v hv
      show nonEmpty (some q) = some p ↔ some q = some p ∧ p ≠ []
      cases q with
      | nil => simp [nonEmpty]
      | cons c cs => simp only [nonEmpty, Option.some.injEq, iff_self_and]; intro h; rw [← h]; simp
  have henum : (let e := ((enumerationOf rs).map (·.map textOf)).getD []; e = [] ∨ t ∈ e) ↔
      ∀ l, enumerationOf rs = some l → some t ∈ l := by
    cases hf : enumerationOf rs with
    | none => simp
    | some l =>
      obtain ⟨r, hr, hv⟩ := List.exists_of_findSome?_eq_some hf
      have hl : r.enumerations ≠ [] ∧ r.enumerations = l := by
        by_cases h : r.enumerations = []
        · rw [if_pos h] at hv; cases hv
        · rw [if_neg h] at hv; exact ⟨h, Option.some.inj hv⟩
      obtain ⟨hne, rfl⟩ := hl
      simp only [Option.map_some, Option.getD_some, List.map_eq_nil_iff, hne, false_or, Option.some.injEq, forall_eq']
      constructor
      · intro h
        obtain ⟨o, ho, rfl⟩ := List.mem_map.1 h
        obtain ⟨q, rfl, _⟩ := (hp r hr).1 o ho
        exact ho
      · intro h; exact List.mem_map.2 ⟨some t, h, rfl⟩
  constructor
  · intro h
    refine ⟨fun p h1 h2 => ?_, henum.1 h.enumeration⟩
    refine h.pattern (compile p) ?_
    show given ((nonEmpty _).map compile) none = _
    rw [(hpat p).2 ⟨h1, h2⟩]; rfl
  · intro h
    refine ⟨fun p h1 => ?_, henum.2 h.2, trivial, trivial, trivial⟩
    cases hn : nonEmpty ((rs.findSome? fun r => r.pattern).map textOf) with
    | none =>
      rw [show ({ pattern := (nonEmpty ((rs.findSome? fun r => r.pattern).map textOf)).map compile
                  enumeration := (enumerationOf rs).map (·.map textOf) } : StrArgs).pattern = none by rw [hn]; rfl] at h1
      cases h1
    | some q =>
      rw [show ({ pattern := (nonEmpty ((rs.findSome? fun r => r.pattern).map textOf)).map compile
                  enumeration := (enumerationOf rs).map (·.map textOf) } : StrArgs).pattern = some (compile q) by
            rw [hn]; rfl] at h1
      have := Option.some.inj h1
      subst this
      obtain ⟨h2, h3⟩ := (hpat q).1 hn
      exact h.1 q h2 h3

theorem derived_accept (compile : Str → Pattern) (rs : List DRestriction) (hp : ∀ r ∈ rs, PlainFacets r) (t : Str) :
    (TextObeys compile rs t ∧ (SType.string (StrFacets.init {}
      { pattern := (nonEmpty ((rs.findSome? fun r => r.pattern).map textOf)).map compile
        enumeration := (enumerationOf rs).map (·.map textOf) })).accept (.str t) = .ok (.str t)) ∨
    (¬ TextObeys compile rs t ∧ (SType.string (StrFacets.init {}
      { pattern := (nonEmpty ((rs.findSome? fun r => r.pattern).map textOf)).map compile
        enumeration := (enumerationOf rs).map (·.map textOf) })).accept (.str t) = .error .valueError) := by
  have := C05_string_facets {} { pattern := (nonEmpty ((rs.findSome? fun r => r.pattern).map textOf)).map compile
                                 enumeration := (enumerationOf rs).map (·.map textOf) } t t rfl
  rw [textObeys_iff compile rs hp t] at this
  exact this

/-- **C84 (text).** Let code be generated from a document and imported, and let a simple type of the document be derived from
a text type by any number of restrictions.  A text is accepted exactly if it matches the pattern of the last restriction
with a pattern and is enumerated in the last restriction with an enumeration, and is then left as it is.  Lengths,
`whiteSpace`, and patterns and enumerations further up the chain have no effect. -/
theorem C84_text (hm : schemaToPy prefixes digest n parent d = .ok m) (he : execModule vars [] limit m = .ok (env, s))
    (hd : (m.classes.map (·.name)).Nodup) {c : Str} {b : Builtin} {rs : List DRestriction}
    (h : DerivedBy prefixes d c b rs) (hb : TextBuiltin b) (hp : ∀ r ∈ rs, PlainFacets r) (compile : Str → Pattern)
    (iso : Iso) :
    ∃ o, env.get c = some (.simple o) ∧ ∀ t,
      (TextObeys compile rs t → (TypeUse.simple o).accept env compile iso (.str t) = some (.ok (.str t))) ∧
      (¬ TextObeys compile rs t → (TypeUse.simple o).accept env compile iso (.str t) = some (.error .valueError)) := by
  obtain ⟨o, h1, h2, h3⟩ := derived_object hm he hd h
  obtain ⟨h4, h5⟩ := h3 hp
  refine ⟨o, h1, fun t => ?_⟩
  have hk : b.initKind = .text := by
    unfold TextBuiltin at hb
    revert hb
    cases b <;> first | (intro _; rfl) | (intro h; simp at h)
  have hst : ∀ v, (TypeUse.simple o).accept env compile iso v = some ((SType.string (StrFacets.init {}
      { pattern := (nonEmpty ((rs.findSome? fun r => r.pattern).map textOf)).map compile
        enumeration := (enumerationOf rs).map (·.map textOf) })).accept v) := by
    intro v
    have hobj : (TypeUse.simple o).obj env = .ok (instanceOf o .text []) := by
      show Except.ok (instanceOf o ((o.cls.root.map Builtin.initKind).getD .other) []) = _
      rw [h2]; simp only [Option.map_some, Option.getD_some, hk]
    have hstype : (instanceOf o .text []).stype compile iso = some (SType.string (StrFacets.init {}
      { pattern := (nonEmpty ((rs.findSome? fun r => r.pattern).map textOf)).map compile
        enumeration := (enumerationOf rs).map (·.map textOf) })) := by
      have hcls : (instanceOf o .text []).cls.root = some b := h2
      have hfa : (instanceOf o .text []).strFacets compile = some (StrFacets.init {}
          { pattern := (nonEmpty ((rs.findSome? fun r => r.pattern).map textOf)).map compile
            enumeration := (enumerationOf rs).map (·.map textOf) }) := by
        have he' : (instanceOf o .text []).enumeration = ((enumerationOf rs).map (·.map textOf)).map (·.map Atom.str) := by
          show ((textsArg [] py"enumeration").or o.enumeration).map _ = _
          rw [h5]; rfl
        have hp' : (instanceOf o .text []).pattern = (rs.findSome? fun r => r.pattern).map textOf := by
          show (textArg [] py"pattern").or (facetOf o.facets py"pattern") = _
          rw [h4]; rfl
        unfold TypeObj.strFacets
        rw [he', hp']
        have : textList? ((((enumerationOf rs).map (·.map textOf)).map (·.map Atom.str)).getD []) =
            some (((enumerationOf rs).map (·.map textOf)).getD []) := by
          cases enumerationOf rs with
          | none => rfl
          | some l => exact textList_str _
        rw [this]
        show some _ = some _
        congr 1
        unfold StrFacets.init
        congr 1
        cases nonEmpty ((rs.findSome? fun r => r.pattern).map textOf) <;> rfl
      unfold TypeObj.stype
      rw [hcls, hfa]
      unfold TextBuiltin at hb
      revert hb
      cases b <;> first | (intro _; rfl) | (intro h; simp at h)
    unfold TypeUse.accept
    rw [hobj]
    simp only [hstype, Option.map_some]
  rcases derived_accept compile rs hp t with ⟨h6, h7⟩ | ⟨h6, h7⟩
  · exact ⟨fun _ => by rw [hst, h7], fun hn => absurd h6 hn⟩
  · exact ⟨fun hn => absurd hn h6, fun _ => by rw [hst, h7]⟩

/-- **C84 (other types).** A simple type derived from a type that is no text type accepts what the built-in type accepts and
returns the same: none of its restrictions has any effect. -/
theorem C84_ignored (hm : schemaToPy prefixes digest n parent d = .ok m) (he : execModule vars [] limit m = .ok (env, s))
    (hd : (m.classes.map (·.name)).Nodup) {c : Str} {b : Builtin} {rs : List DRestriction}
    (h : DerivedBy prefixes d c b rs) (hb : ¬ TextBuiltin b) (compile : Str → Pattern) (iso : Iso) :
    ∃ o, env.get c = some (.simple o) ∧ ∀ v,
      (TypeUse.simple o).accept env compile iso v =
        (TypeUse.simple { cls := .builtin b }).accept env compile iso v := by
  obtain ⟨o, h1, h2, _⟩ := derived_object hm he hd h
  refine ⟨o, h1, fun v => ?_⟩
  have hobj : (TypeUse.simple o).obj env = .ok (instanceOf o b.initKind []) := by
    show Except.ok (instanceOf o ((o.cls.root.map Builtin.initKind).getD .other) []) = _
    rw [h2]; rfl
  have hobj2 : (TypeUse.simple { cls := .builtin b }).obj env = .ok (instanceOf { cls := .builtin b } b.initKind []) := rfl
  unfold TypeUse.accept
  rw [hobj, hobj2]
  simp only
  have : (instanceOf o b.initKind []).stype compile iso = (instanceOf { cls := .builtin b } b.initKind []).stype compile iso := by
    have hr : ∀ k, (instanceOf o k []).cls.root = some b := by
      intro k; cases k <;> exact h2
    have hr2 : ∀ k, (instanceOf { cls := .builtin b } k []).cls.root = some b := by
      intro k; cases k <;> rfl
    unfold TypeObj.stype
    rw [hr, hr2]
    unfold TextBuiltin at hb
    cases b with
    | int k => cases k <;> rfl
    | _ => first | rfl | exact absurd (by simp) hb
  rw [this]

/-- **C84 (integers).** In particular, a simple type derived from an integer type accepts every integer in the range of that
type, whatever bounds, digits, patterns and values its restrictions state. -/
theorem C84_integer (hm : schemaToPy prefixes digest n parent d = .ok m) (he : execModule vars [] limit m = .ok (env, s))
    (hd : (m.classes.map (·.name)).Nodup) {c : Str} {k : IntKind} {rs : List DRestriction}
    (h : DerivedBy prefixes d c (.int k) rs) (compile : Str → Pattern) (iso : Iso) :
    ∃ o, env.get c = some (.simple o) ∧ ∀ i,
      (InRange k i → (TypeUse.simple o).accept env compile iso (.int i) = some (.ok (.int i))) ∧
      (¬ InRange k i → (TypeUse.simple o).accept env compile iso (.int i) = some (.error .valueError)) := by
  obtain ⟨o, h1, h2⟩ := C84_ignored hm he hd h (by unfold TextBuiltin; simp) compile iso
  have hacc : ∀ i, (TypeUse.simple o).accept env compile iso (.int i) =
      some ((SType.integer (k.facets {})).accept (.int i)) := by
    intro i
    rw [h2]
    cases k <;> rfl
  refine ⟨o, h1, fun i => ⟨fun hi => ?_, fun hi => ?_⟩⟩
  · rw [hacc, C01_integer_range, if_pos hi]
  · rw [hacc, C01_integer_range, if_neg hi]

/-- **C84 (numbers).** A simple type derived from `decimal`, `double` or `float` accepts every number. -/
theorem C84_decimal (hm : schemaToPy prefixes digest n parent d = .ok m) (he : execModule vars [] limit m = .ok (env, s))
    (hd : (m.classes.map (·.name)).Nodup) {c : Str} {b : Builtin} {rs : List DRestriction}
    (h : DerivedBy prefixes d c b rs) (hb : b ∈ [.decimal, .double, .float]) (compile : Str → Pattern) (iso : Iso) :
    ∃ o, env.get c = some (.simple o) ∧ (∀ i, (TypeUse.simple o).accept env compile iso (.int i) = some (.ok (.int i))) ∧
      ∀ x, (TypeUse.simple o).accept env compile iso (.float x) = some (.ok (.float x)) := by
  have hnt : ¬ TextBuiltin b := by
    unfold TextBuiltin
    revert hb
    cases b <;> simp
  obtain ⟨o, h1, h2⟩ := C84_ignored hm he hd h hnt compile iso
  refine ⟨o, h1, fun i => ?_, fun x => ?_⟩
  all_goals
    rw [h2]
    revert hb
    cases b <;> first | (intro _; rfl) | simp

/-! ### Types in place -/

theorem params_number {b : Builtin} (hb : NumberBuiltin b) : ∀ n ∈ [py"enumeration", py"pattern", py"minInclusive",
    py"maxInclusive", py"minExclusive", py"maxExclusive"], n ∈ b.initKind.params := by
  rcases hb with hb | ⟨k, rfl⟩
  · revert hb
    cases b <;> first | (intro h; simp at h; done) | (intro _; decide)
  · show ∀ n ∈ _, n ∈ InitKind.params .decimal
    decide

theorem params_digits {b : Builtin} (hb : NumberBuiltin b) (hd : b ∉ [.double, .float]) :
    ∀ n ∈ [py"fractionDigits", py"totalDigits"], n ∈ b.initKind.params := by
  rcases hb with hb | ⟨k, rfl⟩
  · revert hb hd
    cases b <;> first | (intro _ h; simp at h; done) | (intro h; simp at h; done) | (intro _ _; decide)
  · show ∀ n ∈ _, n ∈ InitKind.params .decimal
    decide

/-- **C84 (text in place).** An element whose type is a restriction of a text type in place becomes a field that must occur
once, cannot be nil and, whatever the element says, occurs once.  It accepts the texts that satisfy all the facets. -/
theorem C84_in_place_text {known bound : List Str} {e : DElement} {name : Str} {b : Builtin} {f : InPlaceFacets}
    (h : HasInPlace prefixes e name b f) (hb : TextBuiltin b) (hbounds : f.minInclusive = none ∧ f.maxInclusive = none ∧
      f.minExclusive = none ∧ f.maxExclusive = none ∧ f.fractionDigits = none ∧ f.totalDigits = none)
    (hx : py"xsd" ∉ bound) (compile : Str → Pattern) (iso : Iso) :
    ∃ c u, elementFields prefixes known e = .ok [c] ∧ c.target = name ∧
      execField env bound c = .ok (.element u none 1 false) ∧ ∀ t,
      (StrOk {} { pattern := (nonEmpty f.pattern).map compile, enumeration := some f.enumeration, length := f.length
                  minLength := f.minLength, maxLength := f.maxLength } t →
        u.accept env compile iso (.str t) = some (.ok (.str t))) ∧
      (¬ StrOk {} { pattern := (nonEmpty f.pattern).map compile, enumeration := some f.enumeration, length := f.length
                    minLength := f.minLength, maxLength := f.maxLength } t →
        u.accept env compile iso (.str t) = some (.error .valueError)) := by
  obtain ⟨q, hfield⟩ := elementFields_inPlace (known := known) h
  have hk : b.initKind = .text := by
    unfold TextBuiltin at hb
    revert hb
    cases b <;> first | (intro _; rfl) | (intro h; simp at h)
  have hpar : ∀ a ∈ f.vals, a.1 ∈ b.initKind.params := by
    intro a ha
    rw [hk]
    obtain ⟨h1, h2, h3, h4, h5, h6⟩ := hbounds
    rcases inPlace_names f ha with h | h | h | h | h | h | h | h | h | h | h
    · rw [h]; decide
    · rw [h]; decide
    · exact absurd h1 h.2
    · exact absurd h2 h.2
    · exact absurd h3 h.2
    · exact absurd h4 h.2
    · exact absurd h5 h.2
    · exact absurd h6 h.2
    · rw [h.1]; decide
    · rw [h.1]; decide
    · rw [h.1]; decide
  refine ⟨_, _, hfield, rfl, execField_inPlace h.plain h.name.2 q hx hpar, fun t => ?_⟩
  have hacc : ∀ v, (TypeUse.inst (instanceOf { cls := .builtin b } b.initKind f.vals)).accept env compile iso v =
      some ((SType.string (StrFacets.init {} { pattern := (nonEmpty f.pattern).map compile, enumeration := some f.enumeration
                                               length := f.length, minLength := f.minLength
                                               maxLength := f.maxLength })).accept v) := by
    intro v
    rw [hk]
    have hfa : (instanceOf { cls := .builtin b } .text f.vals).strFacets compile = some (StrFacets.init {}
        { pattern := (nonEmpty f.pattern).map compile, enumeration := some f.enumeration, length := f.length
          minLength := f.minLength, maxLength := f.maxLength }) := by
      have he : (instanceOf { cls := .builtin b } .text f.vals).enumeration =
          if f.enumeration = [] then none else some (f.enumeration.map Atom.str) := by
        show ((textsArg f.vals py"enumeration").or none).map _ = _
        rw [arg_enumeration]
        by_cases h : f.enumeration = []
        · rw [if_pos h, if_pos h]; rfl
        · rw [if_neg h, if_neg h]; rfl
      have hpt : (instanceOf { cls := .builtin b } .text f.vals).pattern = f.pattern := by
        show (textArg f.vals py"pattern").or none = _
        rw [arg_pattern]; cases f.pattern <;> rfl
      have hl1 : (instanceOf { cls := .builtin b } .text f.vals).length = f.length.map .int := arg_length f
      have hl2 : (instanceOf { cls := .builtin b } .text f.vals).minLength = f.minLength.map .int := arg_minLength f
      have hl3 : (instanceOf { cls := .builtin b } .text f.vals).maxLength = f.maxLength.map .int := arg_maxLength f
      have hi : ∀ i : Option Int, intFacet? (i.map .int) = some i := by intro i; cases i <;> rfl
      have hte : textList? ((if f.enumeration = [] then none else some (f.enumeration.map Atom.str)).getD []) =
          some f.enumeration := by
        by_cases h : f.enumeration = []
        · rw [if_pos h, h]; rfl
        · rw [if_neg h]; exact textList_str _
      unfold TypeObj.strFacets
      rw [he, hpt, hl1, hl2, hl3, hte, hi, hi, hi]
      show some _ = some _
      congr 1
      unfold StrFacets.init
      cases nonEmpty f.pattern <;> cases f.length <;> cases f.minLength <;> cases f.maxLength <;> rfl
    have hst : (instanceOf { cls := .builtin b } .text f.vals).stype compile iso = some (SType.string (StrFacets.init {}
        { pattern := (nonEmpty f.pattern).map compile, enumeration := some f.enumeration, length := f.length
          minLength := f.minLength, maxLength := f.maxLength })) := by
      have hcls : (instanceOf { cls := .builtin b } .text f.vals).cls.root = some b := rfl
      unfold TypeObj.stype
      rw [hcls, hfa]
      unfold TextBuiltin at hb
      revert hb
      cases b <;> first | (intro _; rfl) | (intro h; simp at h)
    unfold TypeUse.accept
    show (((instanceOf { cls := .builtin b } .text f.vals).stype compile iso).map fun s => s.accept v) = _
    rw [hst]; rfl
  have := C05_string_facets {} { pattern := (nonEmpty f.pattern).map compile, enumeration := some f.enumeration
                                 length := f.length, minLength := f.minLength, maxLength := f.maxLength } t t rfl
  rcases this with ⟨h6, h7⟩ | ⟨h6, h7⟩
  · exact ⟨fun _ => by rw [hacc, h7], fun hn => absurd h6 hn⟩
  · exact ⟨fun hn => absurd hn h6, fun _ => by rw [hacc, h7]⟩

/-- **C84 (integers in place).** For a restriction of an integer type in place, without an enumeration, the bounds and the
number of digits are checked, but an inclusive bound only where the type itself has none on that side; the pattern and
`fractionDigits` have no effect. -/
theorem C84_in_place_integer {known bound : List Str} {e : DElement} {name : Str} {k : IntKind} {f : InPlaceFacets}
    (h : HasInPlace prefixes e name (.int k) f) (hen : f.enumeration = [])
    (hlen : f.length = none ∧ f.minLength = none ∧ f.maxLength = none)
    (hx : py"xsd" ∉ bound) (compile : Str → Pattern) (iso : Iso) :
    ∃ c u, elementFields prefixes known e = .ok [c] ∧ c.target = name ∧
      execField env bound c = .ok (.element u none 1 false) ∧ ∀ i,
      (Satisfies k { minInclusive := f.minInclusive, maxInclusive := f.maxInclusive, minExclusive := f.minExclusive
                     maxExclusive := f.maxExclusive, totalDigits := f.totalDigits } i →
        u.accept env compile iso (.int i) = some (.ok (.int i))) ∧
      (¬ Satisfies k { minInclusive := f.minInclusive, maxInclusive := f.maxInclusive, minExclusive := f.minExclusive
                       maxExclusive := f.maxExclusive, totalDigits := f.totalDigits } i →
        u.accept env compile iso (.int i) = some (.error .valueError)) := by
  obtain ⟨q, hfield⟩ := elementFields_inPlace (known := known) h
  have hpar : ∀ a ∈ f.vals, a.1 ∈ (Builtin.int k).initKind.params := by
    intro a ha
    have hnum : NumberBuiltin (.int k) := .inr ⟨k, rfl⟩
    obtain ⟨h1, h2, h3⟩ := hlen
    rcases inPlace_names f ha with h | h | h | h | h | h | h | h | h | h | h
    · exact params_number hnum _ (by rw [h]; decide)
    · exact params_number hnum _ (by rw [h]; decide)
    · exact params_number hnum _ (by rw [h.1]; decide)
    · exact params_number hnum _ (by rw [h.1]; decide)
    · exact params_number hnum _ (by rw [h.1]; decide)
    · exact params_number hnum _ (by rw [h.1]; decide)
    · exact params_digits hnum (by simp) _ (by rw [h.1]; decide)
    · exact params_digits hnum (by simp) _ (by rw [h.1]; decide)
    · exact absurd h1 h.2
    · exact absurd h2 h.2
    · exact absurd h3 h.2
  refine ⟨_, _, hfield, rfl, execField_inPlace h.plain h.name.2 q hx hpar, fun i => ?_⟩
  have hst : (instanceOf { cls := .builtin (.int k) } (.integer k) f.vals).stype compile iso =
      some (.integer (k.facets (IntArgs.facets { minInclusive := f.minInclusive, maxInclusive := f.maxInclusive
                                                 minExclusive := f.minExclusive, maxExclusive := f.maxExclusive
                                                 totalDigits := f.totalDigits }))) := by
    have hte : textsArg f.vals py"enumeration" = none := by rw [arg_enumeration, if_pos hen]
    show ((TypeObj.numFacets compile (overrideType k _)).map fun g => SType.integer (g.update { base := true })) = _
    unfold overrideType TypeObj.numFacets
    simp only [hte, arg_minInclusive, arg_maxInclusive, arg_minExclusive, arg_maxExclusive, arg_totalDigits]
    have hi : intFacet? (f.totalDigits.map .int) = some f.totalDigits := by cases f.totalDigits <;> rfl
    rw [hi]
    cases k <;> rfl
  have hacc : (TypeUse.inst (instanceOf { cls := .builtin (.int k) } (Builtin.int k).initKind f.vals)).accept env compile iso
      (.int i) = some ((SType.integer (k.facets (IntArgs.facets
        { minInclusive := f.minInclusive, maxInclusive := f.maxInclusive, minExclusive := f.minExclusive
          maxExclusive := f.maxExclusive, totalDigits := f.totalDigits }))).accept (.int i)) := by
    show (((instanceOf { cls := .builtin (.int k) } (.integer k) f.vals).stype compile iso).map fun s => s.accept (.int i)) = _
    rw [hst]; rfl
  refine ⟨fun hs => ?_, fun hs => ?_⟩
  · rw [hacc, accept_integer, if_pos hs]
  · rw [hacc, accept_integer, if_neg hs]

theorem pyFloat_error (s : Str) (e : Exn) (h : pyFloat s = .error e) : e = .valueError := by
  unfold pyFloat at h
  simp only at h
  split at h
  · cases h
  · split at h
    · cases h
    · split at h
      · cases h
      · injection h with h; exact h.symm

/-- **C84 (enumerated numbers in place).** If a type in place restricts a number type by an enumeration, no int, no float, no
bool and no text is accepted: the enumerated values are kept as texts, which are not equal to any number. -/
theorem C84_in_place_enumeration {known bound : List Str} {e : DElement} {name : Str} {b : Builtin} {f : InPlaceFacets}
    (h : HasInPlace prefixes e name b f) (hb : NumberBuiltin b) (hen : f.enumeration ≠ [])
    (hlen : f.length = none ∧ f.minLength = none ∧ f.maxLength = none)
    (hdig : b ∈ [.double, .float] → f.fractionDigits = none ∧ f.totalDigits = none)
    (hx : py"xsd" ∉ bound) (compile : Str → Pattern) (iso : Iso) :
    ∃ c u, elementFields prefixes known e = .ok [c] ∧ c.target = name ∧
      execField env bound c = .ok (.element u none 1 false) ∧
      (∀ i, u.accept env compile iso (.int i) = some (.error .valueError)) ∧
      (∀ x, u.accept env compile iso (.float x) = some (.error .valueError)) ∧
      (∀ x, u.accept env compile iso (.bool x) = some (.error .valueError)) ∧
      (∀ t, u.accept env compile iso (.str t) = some (.error .valueError)) := by
  obtain ⟨q, hfield⟩ := elementFields_inPlace (known := known) h
  have hpar : ∀ a ∈ f.vals, a.1 ∈ b.initKind.params := by
    intro a ha
    obtain ⟨h1, h2, h3⟩ := hlen
    rcases inPlace_names f ha with h | h | h | h | h | h | h | h | h | h | h
    · exact params_number hb _ (by rw [h]; decide)
    · exact params_number hb _ (by rw [h]; decide)
    · exact params_number hb _ (by rw [h.1]; decide)
    · exact params_number hb _ (by rw [h.1]; decide)
    · exact params_number hb _ (by rw [h.1]; decide)
    · exact params_number hb _ (by rw [h.1]; decide)
    · exact params_digits hb (fun hm => absurd (hdig hm).1 h.2) _ (by rw [h.1]; decide)
    · exact params_digits hb (fun hm => absurd (hdig hm).2 h.2) _ (by rw [h.1]; decide)
    · exact absurd h1 h.2
    · exact absurd h2 h.2
    · exact absurd h3 h.2
  refine ⟨_, _, hfield, rfl, execField_inPlace h.plain h.name.2 q hx hpar, ?_⟩
  have hte : textsArg f.vals py"enumeration" = some f.enumeration := by rw [arg_enumeration, if_neg hen]
  have hi : ∀ i : Option Int, intFacet? (i.map .int) = some i := by intro i; cases i <;> rfl
  have hst : ∃ g : NumFacets, g.enumeration = some (f.enumeration.map Atom.str) ∧
      ((instanceOf { cls := .builtin b } b.initKind f.vals).stype compile iso = some (.decimal g) ∨
       (instanceOf { cls := .builtin b } b.initKind f.vals).stype compile iso = some (.integer g)) := by
    rcases hb with hb | ⟨k, rfl⟩
    · have : ∃ g : NumFacets, g.enumeration = some (f.enumeration.map Atom.str) ∧
          ({ cls := .builtin b, enumeration := (textsArg f.vals py"enumeration").map (·.map Atom.str)
             fractionDigits := atomArg f.vals py"fractionDigits", pattern := textArg f.vals py"pattern"
             minInclusive := atomArg f.vals py"minInclusive", minExclusive := atomArg f.vals py"minExclusive"
             maxExclusive := atomArg f.vals py"maxExclusive", maxInclusive := atomArg f.vals py"maxInclusive"
             totalDigits := atomArg f.vals py"totalDigits" } : TypeObj).numFacets compile = some g := by
        unfold TypeObj.numFacets
        simp only [hte, arg_fractionDigits, arg_totalDigits, hi]
        exact ⟨_, rfl, rfl⟩
      obtain ⟨g, hg, hg'⟩ := this
      refine ⟨g, hg, .inl ?_⟩
      revert hb
      cases b <;> intro hb <;> first
        | (simp at hb; done)
        | (show (TypeObj.numFacets compile _).map SType.decimal = _; exact congrArg (Option.map SType.decimal) hg')
    · refine ⟨k.facets { enumeration := some (f.enumeration.map Atom.str)
                         maxExclusive := f.maxExclusive.map .int, maxInclusive := f.maxInclusive.map .int
                         minExclusive := f.minExclusive.map .int, minInclusive := f.minInclusive.map .int
                         totalDigits := f.totalDigits }, by rw [facets_eq], .inr ?_⟩
      show ((TypeObj.numFacets compile (overrideType k _)).map fun g => SType.integer (g.update { base := true })) = _
      unfold overrideType TypeObj.numFacets
      simp only [hte, arg_minInclusive, arg_maxInclusive, arg_minExclusive, arg_maxExclusive, arg_totalDigits, hi]
      cases k <;> rfl
  obtain ⟨g, hg, hst⟩ := hst
  have hcheck : ∀ v : Atom, (∀ x, v.eqv (.str x) = false) → checkRestrictions g v = .error .valueError := by
    intro v hv
    unfold checkRestrictions
    have : (f.enumeration.map Atom.str).any (fun x => v.eqv x) = false := by
      rw [List.any_eq_false]
      intro x hx
      obtain ⟨y, _, rfl⟩ := List.mem_map.1 hx
      rw [hv]; simp
    rw [hg]
    simp only [ifGiven, this]
    rfl
  have hacc : ∀ v, (TypeUse.inst (instanceOf { cls := .builtin b } b.initKind f.vals)).accept env compile iso v =
      some (decimalAccept g v) ∨
      (TypeUse.inst (instanceOf { cls := .builtin b } b.initKind f.vals)).accept env compile iso v =
      some (integerAccept g v) := by
    intro v
    rcases hst with hst | hst
    · left
      show (((instanceOf { cls := .builtin b } b.initKind f.vals).stype compile iso).map fun s => s.accept v) = _
      rw [hst]; rfl
    · right
      show (((instanceOf { cls := .builtin b } b.initKind f.vals).stype compile iso).map fun s => s.accept v) = _
      rw [hst]; rfl
  refine ⟨fun i => ?_, fun x => ?_, fun x => ?_, fun t => ?_⟩
  · rcases hacc (.int i) with h | h
    · rw [h]; show some (checkRestrictions g (.int i) >>= _) = _; rw [hcheck _ fun _ => rfl]; rfl
    · rw [h]; show some (checkRestrictions g (.int i) >>= _) = _; rw [hcheck _ fun _ => rfl]; rfl
  · rcases hacc (.float x) with h | h
    · rw [h]; show some (checkRestrictions g (.float x) >>= _) = _
      rw [hcheck _ fun _ => by cases x <;> rfl]; rfl
    · rw [h]; rfl
  · rcases hacc (.bool x) with h | h
    · rw [h]; show some (checkRestrictions g (.bool x) >>= _) = _; rw [hcheck _ fun _ => rfl]; rfl
    · rw [h]; show some (checkRestrictions g (.bool x) >>= _) = _; rw [hcheck _ fun _ => rfl]; rfl
  · rcases hacc (.str t) with h | h
    · rw [h]
      show some (pyFloat t >>= fun x => checkRestrictions g (.float x) >>= _) = _
      cases hp : pyFloat t with
      | error e => rw [pyFloat_error t e hp]; rfl
      | ok x => simp only [bind, Except.bind, hcheck (.float x) fun _ => by cases x <;> rfl]
    · rw [h]
      show some (pyInt t >>= fun x => checkRestrictions g (.int x) >>= _) = _
      cases hp : pyInt t with
      | error e => rw [pyInt_error t e hp]; rfl
      | ok x => simp only [bind, Except.bind, hcheck (.int x) fun _ => rfl]

end

namespace Ex

/-- A text type with values and a pattern, a restriction of it with other values and a length, and a bounded number. -/
def facetDoc : DSchema where
  targetNamespace := some py"urn:f"
  simpleTypes :=
    [{ name := some py"colour"
       restriction := some { base := some py"xs:string", enumerations := [some py"red", some py"blue"]
                             pattern := some (some py"[a-z]+") } },
     { name := some py"shade"
       restriction := some { base := some py"f:colour", enumerations := [some py"pink"], maxLength := some (some py"2") } },
     { name := some py"age"
       restriction := some { base := some py"xs:int", minInclusive := some (some py"0")
                             maxInclusive := some (some py"150") } }]

/-- The restrictions of `shade`, the last one first. -/
def shadeChain : List DRestriction :=
  [{ base := some py"f:colour", enumerations := [some py"pink"], maxLength := some (some py"2") },
   { base := some py"xs:string", enumerations := [some py"red", some py"blue"], pattern := some (some py"[a-z]+") }]

theorem shade_derived : DerivedBy [some py"xs"] facetDoc py"Shade" .string shadeChain :=
  .again (st := facetDoc.simpleTypes[1]) (n := py"shade") (by decide) rfl rfl rfl
    (.prefixed (p := ['f']) (l := py"colour") (by decide) (by decide)) (by decide)
    (.first (st := facetDoc.simpleTypes[0]) (n := py"colour") (by decide) rfl rfl rfl
      (.prefixed (p := py"xs") (l := py"string") (by decide) (by decide)) (by decide) rfl)

theorem age_derived : DerivedBy [some py"xs"] facetDoc py"Age" (.int .int)
    [{ base := some py"xs:int", minInclusive := some (some py"0"), maxInclusive := some (some py"150") }] :=
  .first (st := facetDoc.simpleTypes[2]) (n := py"age") (by decide) rfl rfl rfl
    (.prefixed (p := py"xs") (l := py"int") (by decide) (by decide)) (by decide) rfl

theorem shade_plain : ∀ r ∈ shadeChain, PlainFacets r := by
  intro r hr
  simp only [shadeChain, List.mem_cons, List.not_mem_nil, or_false] at hr
  rcases hr with rfl | rfl
  · refine ⟨fun e he => ?_, fun p hp => by cases hp⟩
    rw [List.mem_singleton.1 he]
    exact ⟨_, rfl, by unfold PlainText; decide⟩
  · refine ⟨fun e he => ?_, fun p hp => ⟨py"[a-z]+", (Option.some.inj hp).symm, ?_⟩⟩
    · simp only [List.mem_cons, List.not_mem_nil, or_false] at he
      rcases he with rfl | rfl
      · exact ⟨_, rfl, by unfold PlainText; decide⟩
      · exact ⟨_, rfl, by unfold PlainText; decide⟩
    · repeat (first | exact .nil | refine .char (by decide) (by decide) (by decide) (by decide) (by decide) ?_)

/-- The module imports; then `Shade` takes `pink`, which `Colour` does not have and which is too long, but not `red`; and
`Age` takes 1000. -/
example : ∃ m env s, schemaToPy [some py"xs"] (fun _ => py"01234") 5 none facetDoc = .ok m ∧
    execModule [] [] 10 m = .ok (env, s) ∧ (m.classes.map (·.name)).Nodup ∧
    (∀ compile iso, (∀ t, PatternAccepts (compile py"[a-z]+") t) → ∃ o, env.get py"Shade" = some (.simple o) ∧
      (TypeUse.simple o).accept env compile iso (.str py"pink") = some (.ok (.str py"pink")) ∧
      (TypeUse.simple o).accept env compile iso (.str py"red") = some (.error .valueError)) ∧
    ∀ compile iso, ∃ o, env.get py"Age" = some (.simple o) ∧
      (TypeUse.simple o).accept env compile iso (.int 1000) = some (.ok (.int 1000)) := by
  refine ⟨_, _, _, rfl, rfl, by decide, fun compile iso hc => ?_, fun compile iso => ?_⟩
  · obtain ⟨o, h1, h2⟩ := C84_text (prefixes := [some py"xs"]) (digest := fun _ => py"01234") (n := 5) (parent := none)
      (d := facetDoc) (vars := []) (limit := 10) rfl rfl (by decide) shade_derived (by unfold TextBuiltin; decide)
      shade_plain compile iso
    refine ⟨o, h1, (h2 _).1 ⟨fun p hp _ => ?_, fun l hl => ?_⟩, (h2 _).2 fun h => ?_⟩
    · have : p = py"[a-z]+" := (Option.some.inj hp).symm
      rw [this]; exact hc _
    · have : l = [some py"pink"] := (Option.some.inj hl).symm
      rw [this]; decide
    · exact absurd (h.2 [some py"pink"] rfl) (by decide)
  · obtain ⟨o, h1, h2⟩ := C84_integer (prefixes := [some py"xs"]) (digest := fun _ => py"01234") (n := 5) (parent := none)
      (d := facetDoc) (vars := []) (limit := 10) rfl rfl (by decide) age_derived compile iso
    exact ⟨o, h1, (h2 1000).1 (by decide)⟩

def bounded : InPlaceFacets := { minInclusive := some 18, maxExclusive := some 150 }

/-- An element with a bounded integer in place: the inclusive bounds of `xs:int` win, the exclusive one is checked. -/
example : let e : DElement :=
      { name := some py"age"
        simpleType := some { restriction := some (bounded.written py"xs:int") } }
    ∃ c u, elementFields [some py"xs"] [] e = .ok [c] ∧ c.target = py"age" ∧
      execField [] [] c = .ok (.element u none 1 false) ∧
      u.accept [] (fun _ => intPattern) (fun _ => .error .valueError) (.int 5) = some (.ok (.int 5)) ∧
      u.accept [] (fun _ => intPattern) (fun _ => .error .valueError) (.int 150) = some (.error .valueError) := by
  intro e
  obtain ⟨c, u, h1, h2, h3, h4⟩ := C84_in_place_integer (prefixes := [some py"xs"]) (env := []) (known := []) (bound := [])
    (e := e) (name := py"age") (k := .int) (f := bounded)
    { name := ⟨rfl, by decide⟩, type := rfl, ref := rfl
      plain := ⟨fun _ h => absurd h List.not_mem_nil, fun _ h => by cases h⟩
      simpleType := ⟨_, _, some py"xs", py"int", rfl, rfl,
        .prefixed (p := py"xs") (l := py"int") (by decide) (by decide), by decide, by decide, rfl⟩ }
    rfl ⟨rfl, rfl, rfl⟩ (by decide) (fun _ => intPattern) (fun _ => .error .valueError)
  refine ⟨c, u, h1, h2, h3, (h4 5).1 ?_, (h4 150).2 ?_⟩
  · decide
  · decide

end Ex
end Soapfish
