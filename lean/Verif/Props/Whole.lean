import Verif.Whole
import Verif.Props.Validated
/-
Writing and reading whole documents with validation (C109), and the class `Document` (C110).
-/
set_option maxRecDepth 8000
namespace Soapfish
open Spec

/-! ### C109: validation -/

theorem kept_lexical {b : Builtin} {t : Str} (h : Kept b t) : Lexical b t := by
  cases h with
  | string => exact .string
  | anyURI => exact .anyURI
  | true => exact .true
  | false => exact .false
  | int h => exact .int h
  | date h _ hz => exact .date h hz
  | time h h1 h2 => exact .time h (.offset h1 h2)
  | dateTime h _ h3 h1 h2 => exact .dateTime h h3 (.offset h1 h2)
  | @decimal d _ h =>
    obtain ⟨x, hx⟩ := (C121_decimal {} (.fin d) _ rfl).2 ⟨_, rfl, h⟩
    exact .decimal hx
  | double => exact .double (.inl ⟨_, repr_number _⟩)
  | float => exact .float (.inl ⟨_, repr_number _⟩)

theorem keptAttr_lexical {b : Builtin} {t : Str} (h : KeptAttr b t) : Lexical b t := by
  cases h with
  | kept h => exact kept_lexical h
  | string => exact .string
  | anyURI => exact .anyURI

section
variable {prefixes : List (Option Str)} {d : DSchema} {means : Str → Str → Prop} {LA LE LA' LE' : Builtin → Str → Prop}

theorem FitsType.imp {L L' : Builtin → Str → Prop} (h : ∀ b t, L b t → L' b t) {q t : Str} (hf : FitsType prefixes d means L q t) :
    FitsType prefixes d means L' q t := by
  cases hf with
  | builtin h1 h2 h3 h4 => exact .builtin h1 h2 h3 (h _ _ h4)
  | derived h1 h2 h3 h4 h5 => exact .derived h1 h2 h3 (h _ _ h4) h5

mutual
theorem content_imp (hA : ∀ b t, LA b t → LA' b t) (hE : ∀ b t, LE b t → LE' b t) : ∀ {ct as ks},
    ValidContent prefixes d means LA LE ct as ks → ValidContent prefixes d means LA' LE' ct as ks
  | _, _, _, .sequence h1 h2 h3 h4 => .sequence h1 h2
      ⟨fun a ha => by
          obtain ⟨decl, hd, n, q, e1, e2, e3, e4⟩ := h3.declared a ha
          exact ⟨decl, hd, n, q, e1, e2, e3, e4.imp hA⟩, h3.distinct, h3.required⟩ (sequence_imp hA hE h4)
theorem sequence_imp (hA : ∀ b t, LA b t → LA' b t) (hE : ∀ b t, LE b t → LE' b t) : ∀ {es xs},
    ValidSequence prefixes d means LA LE es xs → ValidSequence prefixes d means LA' LE' es xs
  | _, _, .nil => .nil
  | _, _, .cons h1 h2 h3 => .cons (fun x hx => element_imp hA hE (h1 x hx)) h2 (sequence_imp hA hE h3)
theorem element_imp (hA : ∀ b t, LA b t → LA' b t) (hE : ∀ b t, LE b t → LE' b t) : ∀ {e x},
    ValidElement prefixes d means LA LE e x → ValidElement prefixes d means LA' LE' e x
  | _, _, .nil h1 h2 => .nil h1 h2
  | _, _, .text h1 h2 h3 => .text h1 h2 (h3.imp hE)
  | _, _, .content h1 h2 h3 h4 h5 h6 h7 h8 => .content h1 h2 h3 h4 h5 h6 h7 (content_imp hA hE h8)
end
end

section
variable {compile : Str → Pattern} {iso : Iso} {cls top : Str → ClsId} {T : Table} {limit : Nat}

/-- The top-level element with the type of a class, in the document. -/
theorem root_valid {g : GSchema} (hs : SchemaSurvives g limit) {t : GTop} (ht : t ∈ g.elements) {c : GComplex}
    (hc : c ∈ g.complexTypes) (hty : t.type = .ofClass (.complex c.name)) {means : Str → Str → Prop} {ct : DComplex}
    (hct : ct ∈ (schemaOf g).complexTypes) (hn : ct.name = some (refName c.name)) {as : List (QName × Str)} {tx : Option Str}
    {ks : List Xml} (htx : BlankText tx) (hv : ValidContent [some py"xsd"] (schemaOf g) means Lexical Lexical ct as ks) :
    ValidRoot [some py"xsd"] (schemaOf g) means (.elem ⟨some g.targetNamespace, t.name⟩ as tx ks) :=
  ⟨topOf t, List.mem_map.2 ⟨t, ht, rfl⟩, t.name, py"sns:" ++ refName c.name, some py"sns", refName c.name, rfl, by
    unfold topOf; rw [hty]; rfl, sns_qualified (complex_name hs hc), by decide, ct, hct, hn, as, tx, ks, rfl, htx, hv⟩

/-- **C109 (written).** A program compiles the XSD document of its own schema object with lxml, which accepts what is valid
for it, and writes an object of a class as a top-level element with this class, with validation.  If all required fields are
set, the result is the same as without validation. -/
theorem C109_written (L : Lxml) (v : Version) (D : Nat) (g : GSchema) (xs xs' : Xml) (h : generateSchema v (D + 12) g = .ok xs)
    (hb : Back xs xs') (hs : SchemaSurvives g limit) (hk : TypesKept g) (he : Enforced g)
    (hT : Shown compile iso cls top T g) (hwf : T.Wf) (valid : Xml → Bool) (sd : Val)
    (hsd : parseCls (specTable v) (D + 12) (D + 12) xSchema xs' = .ok sd)
    (hvalid : ∀ y, ValidRoot [some py"xsd"] (readSchema sd) (fun p t => PatternAccepts (compile p) t) y → valid y = true)
    (t : GTop) (ht : t ∈ g.elements) (n : Str) (hty : t.type = .ofClass (.complex n)) (k : Nat) (o : Val)
    (ho : Complete T (.complex (cls n)) o) :
    xmlChecked L T k o t.name (some g.targetNamespace) g.qualified (some valid) =
      xmlChecked L T k o t.name (some g.targetNamespace) g.qualified none := by
  unfold xmlChecked
  cases hx : toXml T k o t.name (some g.targetNamespace) g.qualified with
  | error e => rfl
  | ok y =>
    obtain ⟨d, h1, h2⟩ := C107_written v D g xs xs' limit h hb hs hk hT hwf he (means := fun p t => PatternAccepts (compile p) t)
      fun _ _ h => h
    obtain ⟨d', h1', hd⟩ := published_document h hb
    cases h1.symm.trans hsd
    cases h1.symm.trans h1'
    have htop := (hs.tops t ht).2.2
    rw [hty] at htop
    obtain ⟨c, hc, rfl⟩ := htop
    obtain ⟨ct, hct, hn, h3⟩ := h2 c hc
    obtain ⟨as, ks, rfl, hv⟩ := h3 k o t.name y ho hx
    rw [hd] at hct hv hvalid
    have hblank : BlankText none := fun s hs => by cases hs
    have := hvalid _ (root_valid hs ht hc hty hct hn hblank hv)
    simp only [bind_ok, assertValid, this, Bool.not_true, raiseIf, Bool.false_eq_true, if_false]

/-- **C109 (back).** What is written in this way and survives as text, `parsexml` with the program's schema object reads back
with the same fields. -/
theorem C109_back (L : Lxml) (v : Version) (D : Nat) (g : GSchema) (xs xs' : Xml) (h : generateSchema v (D + 12) g = .ok xs)
    (hb : Back xs xs') (hs : SchemaSurvives g limit) (hk : TypesKept g) (he : Enforced g)
    (hT : Shown compile iso cls top T g) (hsane : T.Sane) (valid : Xml → Bool) (hcomp : L.schema xs = .ok valid) (sd : Val)
    (hsd : parseCls (specTable v) (D + 12) (D + 12) xSchema xs' = .ok sd)
    (hvalid : ∀ y, ValidRoot [some py"xsd"] (readSchema sd) (fun p t => PatternAccepts (compile p) t) y → valid y = true)
    (t : GTop) (ht : t ∈ g.elements) (n : Str) (hty : t.type = .ofClass (.complex n)) (N k : Nat) (o : Val) (y y' : Xml)
    (ho : Complete T (.complex (cls n)) o) (hsv : Survives T N (.complex (cls n)) o)
    (hy : toXml T k o t.name (some g.targetNamespace) g.qualified = .ok y)
    (hr : L.read (L.write y) = some y') (hback : Back y y') (hun : Unmixed y') :
    ∃ text w, xmlChecked L T k o t.name (some g.targetNamespace) g.qualified (some valid) = .ok text ∧
      parsexml L v (D + 12) T N k (cls n) text (.program g) = .ok w ∧ w.Same o := by
  have hw := C109_written L v D g xs xs' h hb hs hk he hT hsane.names valid sd hsd hvalid t ht n hty k o ho
  obtain ⟨d, h1, h2⟩ := C107_written v D g xs xs' limit h hb hs hk hT hsane.names he
    (means := fun p t => PatternAccepts (compile p) t) fun _ _ h => h
  obtain ⟨d', h1', hd⟩ := published_document h hb
  cases h1.symm.trans hsd
  cases h1.symm.trans h1'
  have htop := (hs.tops t ht).2.2
  rw [hty] at htop
  obtain ⟨c, hc, rfl⟩ := htop
  obtain ⟨ct, hct, hn, h3⟩ := h2 c hc
  obtain ⟨as, ks, hye, hv⟩ := h3 k o t.name y ho hy
  rw [hd] at hct hv hvalid
  have hroot : valid y' = true := by
    rw [hye] at hback
    cases hback with
    | @elem _ _ _ t' _ ks' htb hks =>
      cases hun with
      | elem hu1 hu2 =>
        refine hvalid _ (root_valid hs ht hc hty hct hn ?_ (content_back hv _ hks hu2))
        rcases hu1 with rfl | hu1
        · cases hks
          exact (textBack_leaf htb).2 fun s hs => by cases hs
        · exact hu1
  have hinst : ∃ fs x, o = .inst (cls c.name) fs x := by
    cases ho with
    | inst => exact ⟨_, _, rfl⟩
  obtain ⟨fs, x, rfl⟩ := hinst
  obtain ⟨w, hpw, hsame⟩ := C25_roundtrip T hsane N k _ fs x hsv _ _ _ y y' hy hback
  refine ⟨L.write y, w, ?_, ?_, hsame⟩
  · rw [hw]
    simp only [xmlChecked, hy, bind_ok, assertValid]
  · simp only [parsexml, schemaArg, h, bind_ok, hcomp, readChecked, hr, hroot, if_true, hpw]

/-- **C109 (read).** A text whose document is valid for the program's own XSD document, with texts that are kept, `parsexml`
with the program's schema object reads, and the result can be written with the same content. -/
theorem C109_read (L : Lxml) (v : Version) (D : Nat) (g : GSchema) (xs xs' : Xml) (h : generateSchema v (D + 12) g = .ok xs)
    (hb : Back xs xs') (hs : SchemaSurvives g limit) (hk : TypesKept g) (he : Enforced g)
    (hT : Shown compile iso cls top T g) (hsane : T.Sane) (hU : ∀ c ∈ g.complexTypes, Unambiguous T (cls c.name))
    (hO : ∀ t ∈ g.elements, ∀ c, t.type = .inst (some c) → Unambiguous T (top t.name)) (hiso : IsoCanonical iso)
    (valid : Xml → Bool) (hcomp : L.schema xs = .ok valid) (sd : Val)
    (hsd : parseCls (specTable v) (D + 12) (D + 12) xSchema xs' = .ok sd)
    (hvalid : ∀ y, ValidRoot [some py"xsd"] (readSchema sd) (fun p t => PatternAccepts (compile p) t) y → valid y = true)
    (t : GTop) (ht : t ∈ g.elements) (c : GComplex) (hc : c ∈ g.complexTypes) (hty : t.type = .ofClass (.complex c.name)) :
    ∃ ct ∈ (readSchema sd).complexTypes, ct.name = some (refName c.name) ∧
      ∀ (text : Str) (as : List (QName × Str)) (tx : Option Str) (ks : List Xml),
        L.read text = some (.elem ⟨some g.targetNamespace, t.name⟩ as tx ks) → BlankText tx →
        ValidContent [some py"xsd"] (readSchema sd) (fun p t => PatternAccepts (compile p) t) KeptAttr Kept ct as ks →
        ∃ k0, ∀ k, k0 ≤ k → ∃ o z, parsexml L v (D + 12) T (limit + 1) k (cls c.name) text (.program g) = .ok o ∧
          toXml T k o t.name (some g.targetNamespace) g.qualified = .ok z ∧
          SameContent z (.elem ⟨some g.targetNamespace, t.name⟩ as tx ks) := by
  obtain ⟨d, h1, h2⟩ := C107_read v D g xs xs' limit h hb hs hk hT hsane he hU hO hiso
    (means := fun p t => PatternAccepts (compile p) t) fun _ _ h => h
  obtain ⟨d', h1', hd⟩ := published_document h hb
  cases h1.symm.trans hsd
  cases h1.symm.trans h1'
  obtain ⟨ct, hct, hn, h3⟩ := h2 c hc
  refine ⟨ct, hct, hn, fun text as tx ks hread htx hv => ?_⟩
  obtain ⟨k0, hk0⟩ := h3 t.name as tx ks htx hv
  refine ⟨k0, fun k hkk => ?_⟩
  obtain ⟨o, z, e1, e2, e3⟩ := hk0 k hkk
  refine ⟨o, z, ?_, e2, e3⟩
  rw [hd] at hct hv hvalid
  have hroot := hvalid _ (root_valid hs ht hc hty hct hn htx
    (content_imp (fun _ _ h => keptAttr_lexical h) (fun _ _ h => kept_lexical h) hv))
  simp only [parsexml, schemaArg, h, bind_ok, hcomp, readChecked, hread, hroot, if_true, e1]

/-- **C109 (refused).** With validation, a document that is not valid is neither read nor written. -/
theorem C109_refused (L : Lxml) (v : Version) (D : Nat) (N n : Nat) (c : ClsId) (valid : Xml → Bool) :
    (∀ text x, L.read text = some x → valid x = false →
      parsexml L v D T N n c text (.object valid) = .error .xmlSyntaxError) ∧
    (∀ o tag ns q x, toXml T n o tag ns q = .ok x → valid x = false →
      xmlChecked L T n o tag ns q (some valid) = .error .documentInvalid) := by
  constructor
  · intro text x hr hv
    simp only [parsexml, schemaArg, bind_ok, readChecked, hr, hv, Bool.false_eq_true, if_false]
    rfl
  · intro o tag ns q x hx hv
    simp only [xmlChecked, hx, bind_ok, assertValid, hv, Bool.not_false, raiseIf, if_true]
    rfl

/-- ... and a document that is valid is read and written as without validation. -/
theorem C109_same (L : Lxml) (v : Version) (D : Nat) (N n : Nat) (c : ClsId) (valid : Xml → Bool) :
    (∀ text x, L.read text = some x → valid x = true →
      parsexml L v D T N n c text (.object valid) = parsexml L v D T N n c text .absent) ∧
    (∀ o tag ns q x, toXml T n o tag ns q = .ok x → valid x = true →
      xmlChecked L T n o tag ns q (some valid) = xmlChecked L T n o tag ns q none) := by
  constructor
  · intro text x hr hv
    simp only [parsexml, schemaArg, bind_ok, readChecked, hr, hv, if_true]
  · intro o tag ns q x hx hv
    simp only [xmlChecked, hx, bind_ok, assertValid, hv, Bool.not_true, raiseIf, Bool.false_eq_true, if_false]

/-- **C109 (schema objects).** `parsexml` with a schema object of the program reads as with the validator for the XSD document
generated from it; if there is none, because lxml refuses the document, its exception is raised. -/
theorem C109_program (L : Lxml) (v : Version) (D N n : Nat) (c : ClsId) (g : GSchema) (xs : Xml)
    (h : generateSchema v D g = .ok xs) (text : Str) :
    (∀ valid, L.schema xs = .ok valid →
      parsexml L v D T N n c text (.program g) = parsexml L v D T N n c text (.object valid)) ∧
    (∀ e, L.schema xs = .error e → parsexml L v D T N n c text (.program g) = .error e) := by
  constructor
  · intro valid hv
    simp only [parsexml, schemaArg, h, bind_ok, hv]
  · intro e he
    simp only [parsexml, schemaArg, h, bind_ok, he]
    rfl
end

/-! ### C110: the class `Document` -/

/-- **C110 (written).** A document whose field holds an instance of the field's class is written exactly as the instance itself
would be, under the Python name of the field, without namespace and with unqualified elements. -/
theorem C110_written (L : Lxml) (T : Table) (n : Nat) (c k : ClsId) (f : Field) (r : List Field) (vals fs : List (Str × Val))
    (x y : Option Xml) (he : (T c).elems = f :: r) (hk : f.kind = .element) (ht : f.type = .complex k) (hn : f.nspace = none)
    (hv : Dict.get? vals f.name = some (.inst k fs x)) :
    documentRender L T n (.inst c vals y) = xmlChecked L T n (.inst k fs x) f.name none false none := by
  simp only [documentRender, he, getAttr, hv, bind_ok, documentElements, hk, Val.isNone, Bool.false_eq_true, if_false, renderChild,
    Val.isNil, renderType, ht, childNs, hn, xmlChecked, toXml, assertValid]
  cases renderCls T n k (.inst k fs x) none false with
  | error e => rfl
  | ok o => simp [bind_ok, childTag, QName.mk']

/-- **C110 (back).** If this text survives, `parsexml` of the document's class sets the attribute of the class to an instance
with the same fields. -/
theorem C110_back (L : Lxml) (T : Table) (hT : T.Sane) (N n : Nat) (c k : ClsId) (f : Field) (r : List Field)
    (vals fs : List (Str × Val)) (x y : Option Xml) (he : (T c).elems = f :: r) (hk : f.kind = .element)
    (ht : f.type = .complex k) (hn : f.nspace = none) (hv : Dict.get? vals f.name = some (.inst k fs x))
    (hs : Survives T N (.complex k) (.inst k fs x)) (doc doc' : Xml)
    (hdoc : toXml T n (.inst k fs x) f.name none false = .ok doc) (hr : L.read (L.write doc) = some doc') (hb : Back doc doc') :
    ∃ text w, documentRender L T n (.inst c vals y) = .ok text ∧ documentParse L T N n c text = .ok (f.name, w) ∧
      w.Same (.inst k fs x) := by
  obtain ⟨w, hw, hsame⟩ := C25_roundtrip T hT N n k fs x hs _ _ _ doc doc' hdoc hb
  refine ⟨L.write doc, w, ?_, ?_, hsame⟩
  · rw [C110_written L T n c k f r vals fs x y he hk ht hn hv]
    simp only [xmlChecked, hdoc, bind_ok, assertValid]
  · have hnil : doc'.attr qNil = none := by
      simp only [toXml, bind_eq_ok] at hdoc
      obtain ⟨o, ho, hdoc⟩ := hdoc
      cases hdoc
      exact (offers_elem (flat_outIn n k fs x _ _ o hs ho) hb).nil
    have hev := survives_evaluate hs
    simp only [documentParse, he, readChecked, hr, bind_ok, hk, ht, hev, hnil, parseType, hw, reduceCtorEq, if_false]

/-- **C110 (refused).** Without a field there is no document; with None in its field or an empty list it cannot be written; of a
list that is written only the last item is. -/
theorem C110_refused (L : Lxml) (T : Table) (N n : Nat) (c : ClsId) (vals : List (Str × Val)) (y : Option Xml) :
    ((T c).elems = [] → documentRender L T n (.inst c vals y) = .error .indexError ∧
      ∀ text, documentParse L T N n c text = .error .indexError) ∧
    ∀ f r, (T c).elems = f :: r →
      (f.kind = .element → Dict.get? vals f.name = some Val.none →
        documentRender L T n (.inst c vals y) = .error .typeError) ∧
      (f.kind = .list → f.minOccurs = none → (∀ m, f.maxOccurs = some (.int m) → 0 ≤ m) → Dict.get? vals f.name = some (.list true []) →
        documentRender L T n (.inst c vals y) = .error .typeError) ∧
      (f.kind = .list → ∀ is v text, Dict.get? vals f.name = some (.list true (is ++ [v])) →
        documentRender L T n (.inst c vals y) = .ok text →
        ∃ z, renderChild (renderCls T n) f f.tag v none false = .ok z ∧ text = L.write z) := by
  refine ⟨fun he => ⟨by simp only [documentRender, he], fun text => by simp only [documentParse, he]⟩, fun f r he => ⟨?_, ?_, ?_⟩⟩
  · intro hk hv
    simp only [documentRender, he, getAttr, hv, bind_ok, documentElements, hk, Val.isNone, if_true, List.getLast?_nil]
  · intro hk hm hmax hv
    cases hmx : f.maxOccurs with
    | none => simp only [documentRender, he, getAttr, hv, bind_ok, documentElements, hk, renderList, listItems, hm, minViolated, raiseIf, mapE,
        Bool.false_eq_true, if_false, hmx, maxViolated, List.getLast?_nil]
    | some b =>
      cases b with
      | unbounded => simp only [documentRender, he, getAttr, hv, bind_ok, documentElements, hk, renderList, listItems, hm, minViolated, raiseIf, mapE,
          Bool.false_eq_true, if_false, hmx, maxViolated, List.getLast?_nil]
      | int m =>
        have h0 : ¬ (([] : List Val).length : Int) > m := by have := hmax m hmx; simp; omega
        simp only [documentRender, he, getAttr, hv, bind_ok, documentElements, hk, renderList, listItems, hm, minViolated, raiseIf, mapE,
          Bool.false_eq_true, if_false, hmx, maxViolated, h0, decide_false, Bool.and_false, List.getLast?_nil]
  · intro hk is v text hv h
    simp only [documentRender, he, getAttr, hv, bind_ok, documentElements, hk, renderList, listItems] at h
    rw [bind_eq_ok] at h
    obtain ⟨xs, hxs, h⟩ := h
    simp only [bind_eq_ok] at hxs
    obtain ⟨o, ⟨_, _, _, _, kids, hkids, ho⟩, hxs⟩ := hxs
    cases ho
    cases hxs
    obtain ⟨ks, k, h1, h2, rfl⟩ : ∃ ks k, True ∧ renderChild (renderCls T n) f f.tag v none false = .ok k ∧ kids = ks ++ [k] := by
      obtain ⟨ks, l, rfl, _, hl⟩ := (mapE_all2 hkids).split
      cases hl with
      | cons h1 h2 =>
        cases h2
        exact ⟨ks, _, trivial, h1, rfl⟩
    simp only [List.getLast?_append, List.getLast?_singleton, Option.some_or] at h
    exact ⟨k, h2, (Except.ok.inj h).symm⟩

/-- **C110 (lists).** A document whose field is a list is never read. -/
theorem C110_list (L : Lxml) (T : Table) (N n : Nat) (c : ClsId) (f : Field) (r : List Field) (he : (T c).elems = f :: r)
    (hk : f.kind = .list) (text : Str) : ∃ e, documentParse L T N n c text = .error e := by
  unfold documentParse
  simp only [he, hk, if_true]
  cases readChecked L none text with
  | error e => exact ⟨e, rfl⟩
  | ok x =>
    cases evaluate (newInst T N) f.type with
    | error e => exact ⟨e, rfl⟩
    | ok _ =>
      simp only [bind_ok]
      cases (if x.attr qNil ≠ none ∧ x.attr qNil ≠ some [] then Except.ok Val.nil else parseType (parseCls T N n) f.type x) with
      | error e => exact ⟨e, rfl⟩
      | ok _ => exact ⟨_, rfl⟩

/-- **C110 (names).** The root element that is written has the Python name of the field and no namespace, whatever `tagname`
the field has and whatever schema the class of its value belongs to; a schema with a target namespace does not declare it. -/
theorem C110_names (L : Lxml) (T : Table) (n : Nat) (c : ClsId) (f : Field) (r : List Field) (vals : List (Str × Val))
    (y : Option Xml) (he : (T c).elems = f :: r) (hk : f.kind = .element) (text : Str)
    (hw : documentRender L T n (.inst c vals y) = .ok text) :
    ∃ as t ks, text = L.write (.elem ⟨none, f.name⟩ as t ks) ∧
      ∀ prefixes (d : DSchema) means, d.targetNamespace ≠ none → ¬ ValidRoot prefixes d means (.elem ⟨none, f.name⟩ as t ks) := by
  simp only [documentRender, he] at hw
  rw [bind_eq_ok] at hw
  obtain ⟨v, _, hw⟩ := hw
  rw [bind_eq_ok] at hw
  obtain ⟨xs, hxs, hw⟩ := hw
  simp only [documentElements, hk] at hxs
  split at hxs
  · cases hxs
    cases hw
  · rw [bind_eq_ok] at hxs
    obtain ⟨z, hz, hxs⟩ := hxs
    cases hxs
    cases hw
    have hshape : ∃ as t ks, z = .elem ⟨none, f.name⟩ as t ks := by
      unfold renderChild at hz
      simp only [childTag, Bool.false_eq_true, and_false, if_false] at hz
      split at hz
      · cases hz
        exact ⟨_, _, _, rfl⟩
      · rw [bind_eq_ok] at hz
        obtain ⟨⟨o, tx⟩, _, hz⟩ := hz
        cases hz
        exact ⟨_, _, _, rfl⟩
    obtain ⟨as, t, ks, rfl⟩ := hshape
    refine ⟨as, t, ks, rfl, fun prefixes d means hd hroot => ?_⟩
    obtain ⟨e, _, nm, q, p, l, _, _, _, _, ct, _, _, as', t', ks', heq, _⟩ := hroot
    injection heq with heq
    injection heq with heq
    exact hd heq.symm

/-! ### Examples -/

namespace ExWhole
open Ex

/-- A schema object for lxml that only looks at the namespace of the root element. -/
def inNamespace : Xml → Bool
  | .elem q _ _ _ => q.ns == some py"urn:x"
  | _ => false

def lxml (doc : Xml) : Lxml where
  read := fun t => if t = py"<text/>" then some doc else none
  write := fun _ => py"<text/>"
  schema := fun _ => .ok inNamespace

/-- The greeting of Bob is written and read with validation. -/
example (compile : Str → Pattern) (iso : Iso) (v : Version) (xs' : Xml) (hb : Back (document helloSchema) xs') :
    ∃ text w, xmlChecked (lxml ExVal.bob) (soapTable .soap11 ExC.user) 10 ExC.call py"sayHello" (some py"urn:x") false
        (some inNamespace) = .ok text ∧
      parsexml (lxml ExVal.bob) v 12 (soapTable .soap11 ExC.user) 10 10 8 text (.program helloSchema) = .ok w ∧ w.Same ExC.call := by
  have hg : generateSchema v (0 + 12) helloSchema = .ok (document helloSchema) := by cases v <;> rfl
  obtain ⟨sd, hsd, hd⟩ := published_document hg hb
  refine C109_back (lxml ExVal.bob) v 0 helloSchema (document helloSchema) xs' hg hb helloSchema_survives helloSchema_kept
    ExVal.hello_enforced (hello_handWritten compile iso).shown ExC.sane inNamespace rfl sd hsd ?_ _ (List.mem_cons_self ..)
    py"SayHello" rfl 10 10 ExC.call ExVal.bob ExVal.bob ?_ (ExC.survives 8 _ _ none (.inl ⟨rfl, rfl⟩) (by decide)) rfl rfl
    (ExC.nest_back (.cons (ExC.text_back _ _ _) .nil)) ?_
  · intro y hy
    obtain ⟨_, _, _, _, _, _, _, _, _, _, _, _, _, _, _, _, rfl, _⟩ := hy
    rw [hd]
    rfl
  · refine .inst rfl fun f w hf hw => ?_
    cases List.mem_singleton.1 hf
    cases Option.some.inj hw
    exact .single (by decide) (.val (.simple (a := .str py"Bob") rfl trivial fun h => h.elim))
  · refine .elem (.inr fun s hs => by cases hs) fun k hk => ?_
    cases List.mem_singleton.1 hk
    exact .elem (.inl rfl) fun k hk => absurd hk List.not_mem_nil

/-- A document with an airport: class 0 is the airport, class 1 the document. -/
def airports : Table
  | 0 => { name := py"Airport", mro := [0], schema := some ⟨some py"urn:a", true⟩, fields := [
      { name := py"code", kind := .element, type := .simple (.string {}) }] }
  | 1 => { name := py"AirportDocument", mro := [1], fields := [
      { name := py"airport", kind := .element, type := .complex 0, tagname := some py"Airport" }] }
  | n => { name := py"Other", mro := [n], fields := [] }

theorem airports_sane : airports.Sane where
  names := by
    intro c
    match c with
    | 0 | 1 => decide
    | n + 2 => exact List.Pairwise.nil
  self := by
    intro c
    match c with
    | 0 | 1 => decide
    | n + 2 => simp [airports]
  defaults := by
    intro c f c' hf ht
    refine .inr ?_
    have : f.default = Val.none := by
      match c with
      | 0 | 1 => simp [airports] at hf; subst hf; rfl
      | n + 2 => simp [airports] at hf
    rw [this]; exact .none

def airport : Val := .inst 0 [(py"code", .atom (.str py"OSL"))] none
def airportDoc : Xml := .elem ⟨none, py"airport"⟩ [] none [.elem ⟨none, py"code"⟩ [] (some py"OSL") []]

/-- The document is written, under the Python name and unqualified in spite of `tagname` and of the schema, and read back
into the class. -/
example : ∃ text w, documentRender (lxml airportDoc) airports 10 (.inst 1 [(py"airport", airport)] none) = .ok text ∧
    documentParse (lxml airportDoc) airports 10 10 1 text = .ok (py"airport", w) ∧ w.Same airport := by
  refine C110_back (lxml airportDoc) airports airports_sane 10 10 1 0 _ [] _ _ none none rfl rfl rfl rfl rfl ?_ airportDoc airportDoc rfl rfl
    (ExC.nest_back (.cons (ExC.text_back _ _ _) .nil))
  refine .inst rfl rfl (fun n => ?_) (i := _) rfl rfl ?_
  · match n with
    | 0 => exact .nil
    | n + 1 => exact .cons (by simp) .nil
  · intro f v hf hv
    simp only [airports, List.mem_cons, List.not_mem_nil, or_false] at hf
    subst hf
    injection hv with hv; subst hv
    exact .element rfl (by simp) (C25_strings _ _ _ _ (by decide) rfl)

/-- A new document holds None and cannot be written. -/
example (doc : Xml) : (do documentRender (lxml doc) airports 10 (← construct airports 10 1 [])) = .error .typeError := rfl

end ExWhole
end Soapfish
