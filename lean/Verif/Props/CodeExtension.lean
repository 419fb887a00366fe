import Verif.Props.CodeReads
/-
Extension types in generated code: C89.
-/
namespace Soapfish

section
variable {prefixes : List (Option Str)} {digest : Str → Str} {n : Nat} {parent : Option Str} {d : DSchema} {m : PyModule}
  {vars : SchemaVars} {limit : Nat} {env : PyEnv} {s : GSchema} {compile : Str → Pattern} {iso : Iso} {T : Table}

theorem layers_ne {ct : DComplex} {cs : List DContent} (h : Layers prefixes d ct cs) : cs ≠ [] := by
  cases h <;> simp

theorem all2_fun {α β : Type} {g : α → Option β} {as : List α} {bs : List β} (h : All2 (fun a b => g a = some b) as bs) :
    ∀ {cs : List β}, All2 (fun a b => g a = some b) as cs → bs = cs := by
  induction h with
  | nil => intro cs h; cases h; rfl
  | @cons a b as bs h1 _ ih =>
    intro cs h
    cases h with
    | @cons _ c _ cs h2 h3 =>
      rw [h1] at h2
      cases h2
      rw [ih h3]

/-- **C89.** The class for a type that extends another one has the fields of the class for that type, followed by one field
for each attribute and each element with a type that the extension adds; and it is a subclass. -/
theorem C89_extends (hm : schemaToPy prefixes digest n parent d = .ok m) (he : execModule vars [] limit m = .ok (env, s))
    (hd : (m.classes.map (·.name)).Nodup) (hT : moduleTable compile iso env s = some T)
    {ct base : DComplex} (hct : ct ∈ d.complexTypes) {N l : Str} (hn : ct.name = some N) {b : Str} {p : Option Str} {c : DContent}
    (hc : ct.complexContent = some { extension := some (some b, c) }) (hb : Qualified b p l) (hpre : p ∉ prefixes)
    (hbase : base ∈ d.complexTypes) (hbn : base.name = some l) {cs : List DContent} (hl : Layers prefixes d base cs)
    (hp : ∀ c' ∈ cs ++ [c], PlainContent c') (hdist : (layerNames (cs ++ [c])).Nodup) (hcr : py"create" ∉ layerNames (cs ++ [c])) :
    (∃ as es, (T (env.idOf (capName N))).fields = (T (env.idOf (capName l))).fields ++ as ++ es ∧
      All2 (fun a f => AttrField a f ∧ ∀ q, a.type = some q → q ≠ [] → TypeMeans prefixes d env compile iso q f.type)
        c.attributes as ∧
      All2 (fun e f => ElemField e f ∧ ∀ q, e.type = some q → TypeMeans prefixes d env compile iso q f.type)
        (c.elements.filter (·.typed)) es) ∧
    (∀ i ∈ (T (env.idOf (capName l))).mro, i ∈ (T (env.idOf (capName N))).mro) ∧
    (T (env.idOf (capName N))).schema = (T (env.idOf (capName l))).schema := by
  have himp := execModule_imported he
  have hl' : Layers prefixes d ct (cs ++ [c]) := .extension hc hb hpre hbase hbn hl
  obtain ⟨bs, c0, bo, bparts, os, known, cls, e, as, es, hcs, h, -, -, -, -, -, hx⟩ :=
    layers_class hm himp hd hl' hct hn hp hdist hcr
  obtain ⟨rfl, hc0⟩ := List.append_inj' hcs rfl
  cases hc0
  obtain ⟨q', c', p', l', bct, h1, h2, h3, h4, h5, r, h6⟩ := hx (layers_ne hl)
  rw [hc] at h1
  cases h1
  have hsp := hb.split.symm.trans h2.split
  cases hsp
  have hcN := cls_parts (moduleTable_class hT h.get)
  have hcl := cls_parts (moduleTable_class hT h5)
  obtain ⟨x, y, hxy, hx1, hy1⟩ := hcN.1.split
  have hxe := all2_fun hx1 hcl.1
  obtain ⟨as, es, rfl, h7, h8⟩ := layer_fields hm he hd h (hp c (by simp)) hy1
  refine ⟨⟨as, es, ?_, h7, h8⟩, ?_, ?_⟩
  · rw [hxy, hxe, List.append_assoc]
  · intro i hi
    rw [hcl.2.1] at hi
    rw [hcN.2.1]
    rcases List.mem_cons.1 hi with rfl | hi
    · simp [h6]
    · simp only [List.map_cons, List.mem_cons]
      exact .inr (.inr hi)
  · rw [hcN.2.2.2.1, hcl.2.2.2.1]

/-- **C89 (assignment).** Where an instance of a class is expected, an instance of a class derived from it can be assigned. -/
theorem C89_assign {c base : ClsId} (hsub : base ∈ (T c).mro) {nw : ClsId → Except Exn Val} {i : Val} (hnew : nw base = .ok i)
    {o : ClsId} {vals : List (Str × Val)} {x : Option Xml} {f : Field} (hT : T.Sane) (hf : f ∈ (T o).fields)
    (hk : f.kind ≠ .list) (hty : f.type = .complex base) (fs : List (Str × Val)) (y : Option Xml) :
    setAttr T nw (.inst o vals x) f.name (.inst c fs y) = .ok (.inst o (Dict.set vals f.name (.inst c fs y)) x) := by
  have hacc : acceptCls T base (.inst c fs y) = .ok (.inst c fs y) := by
    unfold acceptCls isSub
    split
    · rfl
    · simp [hsub]
  simp only [setAttr, findField_mem (hT.names o) hf, bind_ok, Field.accept, if_neg hk, hty, evaluate, hnew, Except.map, Field.acceptItem, Val.isNil,
    Bool.false_eq_true, if_false, FType.accept, hacc]

/-- **C89 (writing).** There, the instance is written as it would be where its own class is expected: with all its fields and
nothing that says which class it is. -/
theorem C89_written {c base : ClsId} (hsch : (T c).schema = (T base).schema) (hh : (T c).header = false)
    (hhb : (T base).header = false) (k : Nat) (fs : List (Str × Val)) (y : Option Xml) (ns : Option Str) (q : Bool) :
    renderCls T k base (.inst c fs y) ns q = renderCls T k c (.inst c fs y) ns q := by
  cases k with
  | zero => rfl
  | succ k => simp only [renderCls, hh, hhb, Bool.false_eq_true, false_and, if_false, innerNs, hsch]

end

/-- **C89 (reading).** Reading what was written gives an instance of the class that is expected, with the values of that
class's fields; the other values are lost. -/
theorem C89_sliced {T : Table} (hT : T.Sane) {N k : Nat} {c base : ClsId} {own : List Field}
    (hfs : (T c).fields = (T base).fields ++ own) {fs gs : List (Str × Val)} {x : Option Xml}
    (hs : Survives T N (.complex c) (.inst c (fs ++ gs) x)) (hfn : fs.map (·.1) = (T base).fields.map (·.name))
    (hch : (T base).choice = false) {i : Val} (hnew : newInst T N base = .ok i) (hhb : (T base).header = false)
    {ns : Option Str} {q : Bool} {o : Out} {tag : QName} {y : Xml}
    (hw : renderCls T k base (.inst c (fs ++ gs) x) ns q = .ok o) (hb : Back (mkElem tag o none) y) :
    ∃ w, parseCls T N k base y = .ok w ∧ w.Same (.inst base fs none) := by
  cases k with
  | zero => cases hw
  | succ k =>
  have hn := hT.names base
  have hnc := hT.names c
  have hmem : ∀ f ∈ (T base).fields, f ∈ (T c).fields := fun f hf => by rw [hfs]; exact List.mem_append_left _ hf
  simp only [renderCls, hhb, Bool.false_eq_true, false_and, if_false] at hw
  have hof := offers_elem (fields_outIn (flat_outIn k) hs hw) hb
  have hget : ∀ f ∈ (T base).fields, ∀ v, Dict.get? (fs ++ gs) f.name = some v → Dict.get? fs f.name = some v := by
    intro f hf v hv
    obtain ⟨p, hp, hpn⟩ := List.mem_map.1 (by rw [hfn]; exact List.mem_map.2 ⟨f, hf, rfl⟩ : f.name ∈ fs.map (·.1))
    clear hs hw hof hfn hf
    induction fs with
    | nil => cases hp
    | cons a fs ih =>
      obtain ⟨k0, v0⟩ := a
      by_cases hk : k0 = f.name
      · simp only [List.cons_append, Dict.get?, hk, if_true] at hv ⊢
        exact hv
      · simp only [List.cons_append, Dict.get?, hk, if_false] at hv ⊢
        rcases List.mem_cons.1 hp with rfl | hp
        · exact absurd hpn hk
        · exact ih hv hp
  cases id hs with
  | @inst _ _ _ _ hc hh hu _ hsh hf =>
    obtain ⟨M, es, hM, rfl, hes, hall⟩ := newInst_ok hn hnew
    have hfield : ∀ f ∈ (T base).fields, ∃ w, ∃ e v, Dict.get? es f.name = some e ∧ Dict.get? fs f.name = some v ∧
        fieldVal T (newInst T N) (parseCls T N k) f e y = .ok w ∧ w.Same v := by
      intro f hfm
      obtain ⟨v, p, hv, hr, hofp, _⟩ := offers_field hnc hu hf hw hof f (hmem f hfm)
      obtain ⟨e, he⟩ := hes.get hfm
      obtain ⟨w, hw, hsame⟩ := field_back hT (inst_back hT N k) (hf f v (hmem f hfm) hv) hr hofp (fun hk => by
        obtain ⟨e', he', hemp⟩ := newInst_empty hn hnew hfm (by rcases hk with hk | hk <;> simp [hk])
        rw [he] at he'; injection he' with he'; subst he'; exact hemp)
      exact ⟨w, e, v, he, hget f hfm v hv, hw, hsame⟩
    obtain ⟨d, hd⟩ := choose_dict hfield
    obtain ⟨hd1, hd2⟩ := zip_get (P := fun f w => ∃ e v, Dict.get? es f.name = some e ∧ Dict.get? fs f.name = some v ∧
        fieldVal T (newInst T N) (parseCls T N k) f e y = .ok w ∧ w.Same v) hd hn
    refine ⟨.inst base d (some y), (parseCls_ok_iff hn hch).2 ⟨es, d, hnew, rfl, hd1, ?_⟩, ?_⟩
    · intro f hfm
      obtain ⟨w, hw, e, v, he, _, hval, _⟩ := hd2 f hfm
      exact ⟨e, w, he, hval, hw⟩
    · show Val.eraseWith true _ = Val.eraseWith true _
      simp only [Val.eraseWith, Val.inst.injEq, true_and, and_true]
      have hk1 : (eraseFields true d).map (·.1) = (T base).fields.map (·.name) := by
        rw [eraseFields_map, List.map_map, ← hd1]; rfl
      have hk2 : (eraseFields true fs).map (·.1) = (T base).fields.map (·.name) := by
        rw [eraseFields_map, List.map_map, ← hfn]; rfl
      refine dict_ext (by rw [hk1, hk2]) (by rw [hk1]; exact hn) ?_
      intro k
      rw [eraseFields_get, eraseFields_get]
      by_cases hex : ∃ f ∈ (T base).fields, f.name = k
      · obtain ⟨f, hfm, rfl⟩ := hex
        obtain ⟨w, hw, e, v, _, hv, _, hsame⟩ := hd2 f hfm
        rw [hw, hv]
        exact congrArg some hsame
      · have hx : ∀ d : List (Str × Val), d.map (·.1) = (T base).fields.map (·.name) → Dict.get? d k = none := by
          intro d hd
          rw [get_none_iff, hd]
          simp only [List.mem_map]
          exact hex
        rw [hx d hd1, hx fs hfn]

/-! ### Examples -/

namespace Ex

/-- Vehicles, cars and garages. -/
def vehicleDoc : DSchema where
  targetNamespace := some py"urn:v"
  elementFormDefault := some py"qualified"
  complexTypes :=
    [{ name := some py"car"
       complexContent := some { extension := some (some py"v:vehicle",
         { sequence := some [{ name := some py"doors", type := some py"xs:string" }]
           attributes := [{ name := some py"plate", type := some py"xs:string" }] }) } },
     { name := some py"vehicle", content := { sequence := some [{ name := some py"name", type := some py"xs:string" }] } },
     { name := some py"garage", content := { sequence := some [{ name := some py"parked", type := some py"v:vehicle" }] } }]

/-- The classes of the generated code: `Car`, `Garage` and `Vehicle`. -/
def vehicleTable : Table := classTable
  [{ name := py"Car"
     fields := [{ name := py"name", kind := .element, type := .simple (.string {}) },
                { name := py"plate", kind := .attribute, type := .simple (.string {}), required := false },
                { name := py"doors", kind := .element, type := .simple (.string {}) }]
     mro := [0, 0, 2], schema := some ⟨some py"urn:v", true⟩ },
   { name := py"Garage"
     fields := [{ name := py"parked", kind := .element, type := .complex 2 }]
     mro := [1, 1], schema := some ⟨some py"urn:v", true⟩ },
   { name := py"Vehicle"
     fields := [{ name := py"name", kind := .element, type := .simple (.string {}) }]
     mro := [2, 2], schema := some ⟨some py"urn:v", true⟩ }]

theorem vehicle_code : ∃ m env s, schemaToPy [some py"xs"] (fun _ => py"01234") 5 none vehicleDoc = .ok m ∧
    execModule [] [] 10 m = .ok (env, s) ∧ (m.classes.map (·.name)).Nodup ∧
    moduleTable (fun _ => intPattern) isoRef env s = some vehicleTable ∧
    env.idOf py"Car" = 0 ∧ env.idOf py"Garage" = 1 ∧ env.idOf py"Vehicle" = 2 :=
  ⟨_, _, _, rfl, rfl, by decide, rfl, rfl, rfl, rfl⟩

/-- `Car` has the field of `Vehicle` and its own ones, and is a subclass. -/
example : (vehicleTable 0).fields = (vehicleTable 2).fields ++ (vehicleTable 0).fields.drop 1 ∧ 2 ∈ (vehicleTable 0).mro :=
  ⟨rfl, by decide⟩

/-- The layers of the types. -/
def carLayer : DContent where
  sequence := some [{ name := some py"doors", type := some py"xs:string" }]
  attributes := [{ name := some py"plate", type := some py"xs:string" }]

theorem vehicle_qualified : Qualified py"v:vehicle" (some ['v']) py"vehicle" :=
  .prefixed (p := ['v']) (l := py"vehicle") (by decide) (by decide)

theorem car_layers : Layers [some py"xs"] vehicleDoc vehicleDoc.complexTypes[0] [vehicleDoc.complexTypes[1].content, carLayer] :=
  .extension (cs := [_]) rfl vehicle_qualified (by decide) (base := vehicleDoc.complexTypes[1]) (by decide) rfl (.own rfl)

theorem the_vehicle {ct : DComplex} (h : ct ∈ vehicleDoc.complexTypes) {p : Option Str} {l : Str} (hq : Qualified py"v:vehicle" p l)
    (hn : ct.name = some l) : ct = vehicleDoc.complexTypes[1] := by
  have := vehicle_qualified.split.symm.trans hq.split
  cases this
  simp only [vehicleDoc, List.mem_cons, List.not_mem_nil, or_false] at h
  rcases h with rfl | rfl | rfl
  · exact absurd hn (by decide)
  · rfl
  · exact absurd hn (by decide)

theorem car_layers_only {cs : List DContent} (h : Layers [some py"xs"] vehicleDoc vehicleDoc.complexTypes[0] cs) :
    cs = [vehicleDoc.complexTypes[1].content, carLayer] := by
  cases h with
  | own h => cases h
  | «extension» h1 h2 _ h4 h5 h6 =>
    cases h1
    cases the_vehicle h4 h2 h5
    cases layers_plain h6 rfl
    rfl

theorem vehicle_read : ReadDocument [some py"xs"] vehicleDoc := by
  have hlay : ∀ ct ∈ vehicleDoc.complexTypes, ∀ cs, Layers [some py"xs"] vehicleDoc ct cs →
      cs = [vehicleDoc.complexTypes[1].content, carLayer] ∨ cs = [vehicleDoc.complexTypes[1].content] ∨
      cs = [vehicleDoc.complexTypes[2].content] := by
    intro ct h cs hl
    simp only [vehicleDoc, List.mem_cons, List.not_mem_nil, or_false] at h
    rcases h with rfl | rfl | rfl
    · exact .inl (car_layers_only hl)
    · exact .inr (.inl (layers_plain hl rfl))
    · exact .inr (.inr (layers_plain hl rfl))
  have hmem : ∀ ct ∈ vehicleDoc.complexTypes, ∀ cs, Layers [some py"xs"] vehicleDoc ct cs → ∀ c ∈ cs,
      c = vehicleDoc.complexTypes[1].content ∨ c = carLayer ∨ c = vehicleDoc.complexTypes[2].content := by
    intro ct h cs hl c hc
    rcases hlay ct h cs hl with rfl | rfl | rfl
    · rcases List.mem_cons.1 hc with rfl | hc
      · exact .inl rfl
      · exact .inr (.inl (List.mem_singleton.1 hc))
    · exact .inl (List.mem_singleton.1 hc)
    · exact .inr (.inr (List.mem_singleton.1 hc))
  refine ⟨⟨?_, ?_⟩, ?_, ?_, ?_⟩
  · intro ct h
    simp only [vehicleDoc, List.mem_cons, List.not_mem_nil, or_false] at h
    rcases h with rfl | rfl | rfl
    · exact ⟨rfl, _, car_layers⟩
    · exact ⟨rfl, _, .own rfl⟩
    · exact ⟨rfl, _, .own rfl⟩
  · intro ct h cs hl
    refine ⟨fun c hc => ?_, fun c hc => ?_, ?_, fun c hc a ha => ?_, fun c hc e he => ?_⟩
    · rcases hmem ct h cs hl c hc with rfl | rfl | rfl
      · exact ⟨rfl, by decide, by decide⟩
      · exact ⟨rfl, by decide, by decide⟩
      · exact ⟨rfl, by decide, by decide⟩
    · rcases hmem ct h cs hl c hc with rfl | rfl | rfl <;> exact ⟨rfl, rfl⟩
    · rcases hlay ct h cs hl with rfl | rfl | rfl <;> decide
    · rcases hmem ct h cs hl c hc with rfl | rfl | rfl
      · cases ha
      · cases List.mem_singleton.1 ha
        exact ⟨_, rfl, by decide, string_checked _⟩
      · cases ha
    · rcases hmem ct h cs hl c hc with rfl | rfl | rfl
      · cases List.mem_singleton.1 he
        exact ⟨.inr (by decide), _, rfl, .inl (string_checked _)⟩
      · cases List.mem_singleton.1 he
        exact ⟨.inr (by decide), _, rfl, .inl (string_checked _)⟩
      · cases List.mem_singleton.1 he
        exact ⟨.inr (by decide), _, rfl, .inr ⟨some ['v'], py"vehicle", vehicle_qualified, by decide,
          vehicleDoc.complexTypes[1], by decide, rfl⟩⟩
  · intro ct h cs hl c hc
    rcases hmem ct h cs hl c hc with rfl | rfl | rfl
    · intro a ha; cases ha
    · intro a ha n hn
      cases List.mem_singleton.1 ha
      cases hn
      decide
    · intro a ha; cases ha
  · intro ct h cs hl c hc
    rcases hmem ct h cs hl c hc with rfl | rfl | rfl <;> decide
  · intro st h; cases h

/-- Elements with a text. -/
def vText (n t : Str) : Xml := .elem ⟨some py"urn:v", n⟩ [] (some t) []

theorem vText_valid {n t : Str} (means : Str → Str → Prop) (ht : XmlOk t) (hne : t ≠ []) :
    ValidElement [some py"xs"] vehicleDoc means KeptAttr Kept { name := some n, type := some py"xs:string" } (vText n t) :=
  .text (n := n) (q := py"xs:string") (t := some t) rfl rfl
    (.builtin (p := some py"xs") (l := py"string") (b := .string) (.prefixed (p := py"xs") (l := py"string") (by decide) (by decide))
      (by decide) rfl (.string hne ht))

/-- A car is read by the class for the extension and written back. -/
example : ∃ k0, ∀ k, k0 ≤ k → ∃ v z,
    parseCls vehicleTable 11 k 0 (.elem ⟨some py"urn:v", py"car"⟩ [(⟨none, py"plate"⟩, py"AB")] none [vText py"name" py"Mini", vText py"doors" py"2"]) = .ok v ∧
    toXml vehicleTable k v py"car" (some py"urn:v") true = .ok z ∧
    SameContent z (.elem ⟨some py"urn:v", py"car"⟩ [(⟨none, py"plate"⟩, py"AB")] none [vText py"name" py"Mini", vText py"doors" py"2"]) := by
  obtain ⟨m, env, s, h1, h2, h3, h4, h5, _⟩ := vehicle_code
  have h := C88_reads h1 h2 h3 h4 (means := fun _ t => Spec.PatternAccepts intPattern t) (fun _ _ h => h) isoRef_canonical vehicle_read
    (ns := py"urn:v") rfl (by decide) (by unfold PlainText; decide) (form := py"qualified") rfl (by unfold PlainText; decide)
    (ct := vehicleDoc.complexTypes[0]) (by decide) (N := py"car") rfl (tag := py"car") (as := [(⟨none, py"plate"⟩, py"AB")]) (t := none)
    (ks := [vText py"name" py"Mini", vText py"doors" py"2"]) (fun s hs => by cases hs)
    (.sequence car_layers
      (fun c hc => by rcases List.mem_cons.1 hc with rfl | hc; exact ⟨rfl, rfl⟩; cases List.mem_singleton.1 hc; exact ⟨rfl, rfl⟩)
      ⟨fun a ha => by
        cases List.mem_singleton.1 ha
        exact ⟨{ name := some py"plate", type := some py"xs:string" }, List.mem_singleton.2 rfl, py"plate", py"xs:string", rfl, rfl, rfl,
          .builtin (p := some py"xs") (l := py"string") (b := .string) (.prefixed (p := py"xs") (l := py"string") (by decide) (by decide))
            (by decide) rfl (.kept (.string (by decide) (by unfold XmlOk; decide)))⟩, by decide,
       fun decl hd hu => by cases List.mem_singleton.1 hd; cases hu⟩
      (.cons (block := [_]) (rest := [_]) (fun x hx => by
        cases List.mem_singleton.1 hx; exact vText_valid _ (by unfold XmlOk; decide) (by decide)) (allows_one rfl rfl _)
        (.cons (block := [_]) (rest := []) (fun x hx => by
          cases List.mem_singleton.1 hx; exact vText_valid _ (by unfold XmlOk; decide) (by decide)) (allows_one rfl rfl _) .nil)))
  rw [show capName py"car" = py"Car" from rfl, h5] at h
  exact h

/-- A car. -/
def aCar : Val := .inst 0 [(py"name", .atom (.str py"Mini")), (py"plate", .atom (.str py"AB")), (py"doors", .atom (.str py"2"))] none

/-- A garage for vehicles takes the car and is written without an error, but the document is not valid: without `xsi:type` the
attribute and the element of the extension are not allowed.  It is read as a garage with a vehicle that has lost them. -/
theorem C89_not_valid (means : Str → Str → Prop) : ∃ g kids w,
    construct vehicleTable 5 1 [(py"parked", aCar)] = .ok g ∧
    toXml vehicleTable 5 g py"garage" (some py"urn:v") true = .ok (.elem ⟨some py"urn:v", py"garage"⟩ [] none kids) ∧
    kids = [.elem ⟨some py"urn:v", py"parked"⟩ [(⟨none, py"plate"⟩, py"AB")] none [vText py"name" py"Mini", vText py"doors" py"2"]] ∧
    (∀ as, ¬ ValidContent [some py"xs"] vehicleDoc means Lexical Lexical vehicleDoc.complexTypes[2] as kids) ∧
    parseCls vehicleTable 5 5 1 (.elem ⟨some py"urn:v", py"garage"⟩ [] none kids) = .ok w ∧
    toXml vehicleTable 5 w py"garage" (some py"urn:v") true = .ok (.elem ⟨some py"urn:v", py"garage"⟩ [] none
      [.elem ⟨some py"urn:v", py"parked"⟩ [] none [vText py"name" py"Mini"]]) := by
  refine ⟨_, _, _, rfl, rfl, rfl, fun as h => ?_, rfl, rfl⟩
  cases h with
  | sequence hl _ _ h =>
    cases layers_plain hl rfl
    obtain ⟨x, xs, hx, hv⟩ := valid_first h rfl
    cases hx
    cases hv with
    | content h1 h2 h3 h4 h5 h6 h7 h8 =>
      cases h2
      cases the_vehicle h5 h3 h6
      cases h8 with
      | sequence hl _ has _ =>
        cases layers_plain hl rfl
        obtain ⟨decl, hd, _⟩ := has.declared _ (List.mem_singleton.2 rfl)
        cases hd

end Ex

end Soapfish
