import Verif.Spec.Paired
import Verif.Props.Calls
/-
Lemmas for C103: two programs with classes of their own that describe the same documents.
-/
namespace Soapfish

section
variable {R : ClsId → ClsId → Prop} {T T' : Table}

theorem written_tag (f : Field) : f.tag = f.writtenName := by
  unfold Field.tag Field.writtenName
  rcases f.tagname with _ | _ | ⟨c, cs⟩ <;> simp

theorem FieldPair.tag {f f' : Field} (h : FieldPair R f f') : f.tag = f'.tag := by
  rw [written_tag, written_tag, h.written]

theorem ValPair.isNone {v v' : Val} (h : ValPair R T T' v v') : v.isNone = v'.isNone := by cases h <;> rfl
theorem ValPair.isNil {v v' : Val} (h : ValPair R T T' v v') : v.isNil = v'.isNil := by cases h <;> rfl
theorem ValPair.toAtom {v v' : Val} (h : ValPair R T T' v v') : v.toAtom = v'.toAtom := by cases h <;> rfl

theorem ValPair.isGroup (hP : Paired R T T') {v v' : Val} (h : ValPair R T T' v v') :
    v.isGroupInst T = v'.isGroupInst T' := by
  cases h with
  | inst hr => exact (hP _ _ hr).isGroup
  | _ => rfl

/-- Renderers that treat paired classes and values alike. -/
def RenderPair (R : ClsId → ClsId → Prop) (T T' : Table) (rc rc' : RenderCls) : Prop :=
  ∀ c c' v v' ns q, R c c' → ValPair R T T' v v' → rc c v ns q = rc' c' v' ns q

theorem renderType_pair {rc rc' : RenderCls} (hrc : RenderPair R T T' rc rc') {t t' : FType} (ht : TypePair R t t')
    {v v' : Val} (hv : ValPair R T T' v v') (ns : Option Str) (q : Bool) :
    renderType rc t v ns q = renderType rc' t' v' ns q := by
  cases ht with
  | @simple s s' h1 _ _ h4 =>
    have he : s.extraAttrs = s'.extraAttrs := by
      by_cases h : s = .lang
      · rw [h, h4.1 h]
      · have h' : s' ≠ .lang := fun e => h (h4.2 e)
        have : ∀ s : SType, s ≠ .lang → s.extraAttrs = [] := by
          intro s hs
          cases s <;> first | rfl | exact absurd rfl hs
        rw [this s h, this s' h']
    unfold renderType
    simp only [h1, hv.toAtom, he]
  | complex hr =>
    unfold renderType
    simp only [hrc _ _ _ _ _ _ hr hv]

theorem renderChild_pair {rc rc' : RenderCls} (hrc : RenderPair R T T' rc rc') {f f' : Field} (hf : FieldPair R f f')
    (loc : Str) {v v' : Val} (hv : ValPair R T T' v v') (ns : Option Str) (q : Bool) :
    renderChild rc f loc v ns q = renderChild rc' f' loc v' ns q := by
  have h1 : childTag f loc ns q = childTag f' loc ns q := by unfold childTag; rw [hf.nspace]
  have h2 : childNs f ns = childNs f' ns := by unfold childNs; rw [hf.nspace]
  unfold renderChild
  simp only [h1, h2, hv.isNil, renderType_pair hrc hf.type hv]

theorem mapE_pairs {rc rc' : RenderCls} (hrc : RenderPair R T T' rc rc') {f f' : Field} (hf : FieldPair R f f')
    (loc : Str) (ns : Option Str) (q : Bool) : ∀ {vs vs' : List Val}, ValPairs R T T' vs vs' →
    mapE (fun v => renderChild rc f loc v ns q) vs = mapE (fun v => renderChild rc' f' loc v ns q) vs'
  | _, _, .nil => rfl
  | _, _, .cons h hs => by
    unfold mapE
    rw [renderChild_pair hrc hf loc h, mapE_pairs hrc hf loc ns q hs]

theorem ValPairs.length : ∀ {vs vs' : List Val}, ValPairs R T T' vs vs' → vs.length = vs'.length
  | _, _, .nil => rfl
  | _, _, .cons _ hs => by rw [List.length_cons, List.length_cons, hs.length]

theorem chars_pairs : ∀ s : Str, ValPairs R T T' (s.map (fun c => .atom (.str [c]))) (s.map (fun c => .atom (.str [c])))
  | [] => .nil
  | _ :: s => .cons .atom (chars_pairs s)

theorem renderList_pair {rc rc' : RenderCls} (hrc : RenderPair R T T' rc rc') {f f' : Field} (hf : FieldPair R f f')
    {v v' : Val} (hv : ValPair R T T' v v') (ns : Option Str) (q : Bool) :
    renderList rc f v ns q = renderList rc' f' v' ns q := by
  unfold renderList
  rw [hf.minOccurs, hf.maxOccurs, hf.tag]
  have key : ∀ is is', ValPairs R T T' is is' →
      (do raiseIf (minViolated f'.minOccurs is.length) Exn.valueError
          raiseIf (maxViolated f'.maxOccurs is.length) Exn.valueError
          let kids ← mapE (fun v => renderChild rc f f'.tag v ns q) is
          .ok ({ kids := kids } : Out)) =
      (do raiseIf (minViolated f'.minOccurs is'.length) Exn.valueError
          raiseIf (maxViolated f'.maxOccurs is'.length) Exn.valueError
          let kids ← mapE (fun v => renderChild rc' f' f'.tag v ns q) is'
          .ok ({ kids := kids } : Out)) := by
    intro is is' h
    rw [h.length, mapE_pairs hrc hf _ ns q h]
  cases hv with
  | list h => exact key _ _ h
  | @atom a =>
    cases a with
    | str s => exact key _ _ (chars_pairs s)
    | _ => rfl
  | nil => rfl
  | inst => rfl

theorem renderAttr_pair {f f' : Field} (hf : FieldPair R f f') {v v' : Val} (hv : ValPair R T T' v v') :
    renderAttr f v = renderAttr f' v' := by
  unfold renderAttr
  rw [hv.isNone, hv.isNil, hf.required, hf.nillable, hf.tag, hv.toAtom]
  have ht := hf.type
  generalize f.type = t at ht
  generalize f'.type = t' at ht
  cases ht with
  | simple h1 => simp only [h1]
  | complex => rfl

theorem renderRef_pair (hP : Paired R T T') {rc rc' : RenderCls} (hrc : RenderPair R T T' rc rc') {f f' : Field}
    (hf : FieldPair R f f') {v v' : Val} (hv : ValPair R T T' v v') (ns : Option Str) (q : Bool) :
    renderRef T rc f v ns q = renderRef T' rc' f' v' ns q := by
  have key : ∀ v v', ValPair R T T' v v' → (do
      let (o, t) ← renderType rc f.type v ns q
      Except.ok (if v.isGroupInst T then o else { kids := [mkElem (QName.mk' ns f.tag) o t] }) : Except Exn Out) = (do
      let (o, t) ← renderType rc' f'.type v' ns q
      Except.ok (if v'.isGroupInst T' then o else { kids := [mkElem (QName.mk' ns f'.tag) o t] })) := by
    intro v v' hv
    rw [renderType_pair hrc hf.type hv, hv.isGroup hP, hf.tag]
  have h := key v v' hv
  cases hv with
  | @atom a =>
    cases a with
    | none => rfl
    | _ => exact h
  | nil => exact h
  | list => exact h
  | inst => exact h

theorem renderField_pair (hP : Paired R T T') {rc rc' : RenderCls} (hrc : RenderPair R T T' rc rc') {f f' : Field}
    (hf : FieldPair R f f') {v v' : Val} (hv : ValPair R T T' v v') (ns : Option Str) (q : Bool) :
    renderField T rc f v ns q = renderField T' rc' f' v' ns q := by
  unfold renderField
  rw [← hf.kind]
  cases hk : f.kind with
  | element => simp only [hv.isNone, hf.tag, renderChild_pair hrc hf _ hv]
  | classNamed => exact absurd hk hf.named
  | «attribute» => exact renderAttr_pair hf hv
  | ref => exact renderRef_pair hP hrc hf hv ns q
  | content => exact renderRef_pair hP hrc hf hv ns q
  | list => exact renderList_pair hrc hf hv ns q

/-- The fields of paired instances, one after the other. -/
theorem renderFields_pair (hP : Paired R T T') {rc rc' : RenderCls} (hrc : RenderPair R T T' rc rc')
    {vals vals' : List (Str × Val)} (ns : Option Str) (q : Bool) {l l' : List Field} (h : All2 (FieldPair R) l l')
    (hv : All2 (fun f f' => ∃ v v', Dict.get? vals f.name = some v ∧ Dict.get? vals' f'.name = some v' ∧ ValPair R T T' v v')
      l l') : renderFields T rc vals ns q l = renderFields T' rc' vals' ns q l' := by
  induction h with
  | nil => rfl
  | cons hf _ ih =>
    cases hv with
    | cons hv hvs =>
      obtain ⟨v, v', h1, h2, h3⟩ := hv
      unfold renderFields getAttr
      rw [h1, h2]
      simp only [Except_ok_bind, renderField_pair hP hrc hf h3, ih hvs]

/-- The values of the fields of paired instances. -/
theorem pairs_get {fs fs' : List (Str × Val)} {l l' : List Field} (hall : All2 (FieldPair R) l l')
    (h1 : fs.map (·.1) = l.map (·.name)) (h2 : fs'.map (·.1) = l'.map (·.name))
    (hn : (l.map (·.name)).Nodup) (hn' : (l'.map (·.name)).Nodup) (hv : ValPairs R T T' (fs.map (·.2)) (fs'.map (·.2))) :
    All2 (fun f f' => ∃ v v', Dict.get? fs f.name = some v ∧ Dict.get? fs' f'.name = some v' ∧ ValPair R T T' v v') l l' := by
  induction hall generalizing fs fs' with
  | nil => exact .nil
  | @cons f f' l l' hf hl ih =>
    cases fs with
    | nil => cases h1
    | cons p fs =>
      cases fs' with
      | nil => cases h2
      | cons p' fs' =>
        obtain ⟨k, v⟩ := p
        obtain ⟨k', v'⟩ := p'
        simp only [List.map_cons, List.cons.injEq] at h1 h2
        obtain ⟨rfl, h1⟩ := h1
        obtain ⟨rfl, h2⟩ := h2
        simp only [List.map_cons, List.nodup_cons] at hn hn'
        cases hv with
        | cons hv hvs =>
          refine .cons ⟨v, v', by simp [Dict.get?], by simp [Dict.get?], hv⟩ ?_
          have h := ih h1 h2 hn.2 hn'.2 hvs
          refine h.imp_mem ?_
          intro g hg g' hg' ⟨w, w', e1, e2, e3⟩
          refine ⟨w, w', ?_, ?_, e3⟩
          · rw [Dict.get?, if_neg (fun e => hn.1 (List.mem_map.2 ⟨g, hg, e.symm⟩))]; exact e1
          · rw [Dict.get?, if_neg (fun e => hn'.1 (List.mem_map.2 ⟨g', hg', e.symm⟩))]; exact e2

theorem inner_pair (hP : Paired R T T') {c c' : ClsId} (hr : R c c') (ns : Option Str) : innerNs T c ns = innerNs T' c' ns := by
  unfold innerNs
  rw [(hP _ _ hr).schema]

/-- Paired instances are written alike. -/
theorem renderCls_pair (hP : Paired R T T') (hT : T.Wf) (hT' : T'.Wf) : ∀ n, RenderPair R T T' (renderCls T n) (renderCls T' n)
  | 0 => fun _ _ _ _ _ _ _ _ => rfl
  | n + 1 => by
    intro c c' v v' ns q hr hv
    have hh := (hP _ _ hr).header
    unfold renderCls
    cases hv with
    | @inst d d' fs fs' x x' hd h1 h2 h3 =>
      have hc := hP _ _ hd
      simp only [← hh, ← hc.schema, inner_pair hP hr, inner_pair hP hd]
      split
      · rfl
      · exact renderFields_pair hP (renderCls_pair hP hT hT' n) _ q hc.fields (pairs_get hc.fields h1 h2 (hT _) (hT' _) h3)
    | @atom a =>
      cases a with
      | none => simp only [hh]
      | _ => rfl
    | nil => rfl
    | list => rfl

end

end Soapfish
