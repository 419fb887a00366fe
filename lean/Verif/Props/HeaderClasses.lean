import Verif.HeaderClasses
import Verif.Spec.HeaderClasses
import Verif.Props.Meta
import Verif.Props.Parse
import Verif.Props.Render
import Verif.Props.RoundTrip
import Verif.Props.Dispatch
import Mathlib.Data.List.Induction
/-
What the fields of header classes in generated code are called (C133).
-/
namespace Soapfish

theorem header_sorted {h : HeaderObj} {p : Str × GTop} : p ∈ h.sorted ↔ p ∈ h.elements :=
  (sortBy_perm _ _).mem_iff

theorem partNames_same (l : List (Str × GTop)) (names : Dict Str) (e p : Str) (h1 : ∃ g, (p, g) ∈ l ∧ g.name = e)
    (h2 : ∀ p' g, (p', g) ∈ l → g.name = e → p' = p) :
    Dict.get? (l.foldl (fun names p => names.set p.2.name p.1) names) e = some p := by
  induction l using List.reverseRecOn with
  | nil => obtain ⟨g, h, _⟩ := h1; cases h
  | append_singleton l a ih =>
    rw [List.foldl_append]
    simp only [List.foldl_cons, List.foldl_nil]
    by_cases ha : a.2.name = e
    · rw [← ha, Dict.get_set_same]
      exact congrArg some (h2 a.1 a.2 (by simp) ha)
    · rw [Dict.get_set_other _ _ _ _ (fun h => ha h.symm)]
      refine ih ?_ fun p' g hg hn => h2 p' g (by simp [hg]) hn
      obtain ⟨g, hg, hn⟩ := h1
      rcases List.mem_append.1 hg with hg | hg
      · exact ⟨g, hg, hn⟩
      · rw [List.mem_singleton] at hg; subst hg; exact absurd hn ha

theorem partNames_other (l : List (Str × GTop)) (names : Dict Str) (e : Str) (h2 : ∀ p' g, (p', g) ∈ l → g.name ≠ e) :
    Dict.get? (l.foldl (fun names p => names.set p.2.name p.1) names) e = Dict.get? names e := by
  induction l using List.reverseRecOn with
  | nil => rfl
  | append_singleton l a ih =>
    rw [List.foldl_append]
    simp only [List.foldl_cons, List.foldl_nil]
    rw [Dict.get_set_other _ _ _ _ (fun h => h2 a.1 a.2 (by simp) h.symm)]
    exact ih fun p' g hg => h2 p' g (by simp [hg])

theorem headerNames_last (pre post : List HeaderObj) (h : HeaderObj) (p e : Str) (hp : h.Part p e)
    (h1 : ∀ p', h.Part p' e → p' = p) (h2 : ∀ h' ∈ post, ∀ p', ¬ h'.Part p' e) :
    Dict.get? (headerNames (pre ++ h :: post)) e = some p := by
  induction post using List.reverseRecOn with
  | nil =>
    unfold headerNames
    rw [List.foldl_append]
    simp only [List.foldl_cons, List.foldl_nil]
    refine partNames_same _ _ e p ?_ ?_
    · obtain ⟨g, hg, hn⟩ := hp; exact ⟨g, header_sorted.2 hg, hn⟩
    · intro p' g hg hn; exact h1 p' ⟨g, header_sorted.1 hg, hn⟩
  | append_singleton l a ih =>
    have ih := ih fun h' hh => h2 h' (by simp [hh])
    unfold headerNames at ih ⊢
    rw [← List.cons_append, ← List.append_assoc, List.foldl_append]
    simp only [List.foldl_cons, List.foldl_nil]
    rw [partNames_other _ _ e fun p' g hg hn => h2 a (by simp) p' ⟨g, header_sorted.1 hg, hn⟩]
    exact ih

theorem last_part (hs : List HeaderObj) (e : Str) (h : ∃ h ∈ hs, ∃ p, h.Part p e) :
    ∃ pre h post, hs = pre ++ h :: post ∧ (∃ p, h.Part p e) ∧ ∀ h' ∈ post, ∀ p', ¬ h'.Part p' e := by
  induction hs with
  | nil => obtain ⟨_, h, _⟩ := h; cases h
  | cons a l ih =>
    by_cases hl : ∃ h ∈ l, ∃ p, h.Part p e
    · obtain ⟨pre, h, post, h1, h2, h3⟩ := ih hl
      exact ⟨a :: pre, h, post, by rw [h1]; rfl, h2, h3⟩
    · obtain ⟨h, hm, hp⟩ := h
      rcases List.mem_cons.1 hm with rfl | hm
      · exact ⟨[], h, l, rfl, hp, fun h' hh p' hp' => hl ⟨h', hh, p', hp'⟩⟩
      · exact absurd ⟨h, hm, hp⟩ hl

theorem headerNames_one {hs : List HeaderObj} (one : OneName hs) {h : HeaderObj} (hm : h ∈ hs) {p e : Str}
    (hp : h.Part p e) : Dict.get? (headerNames hs) e = some p := by
  obtain ⟨pre, h', post, rfl, ⟨p', hp'⟩, hl⟩ := last_part hs e ⟨h, hm, p, hp⟩
  have hm' : h' ∈ pre ++ h' :: post := by simp
  rw [one h hm h' hm' p p' e hp hp']
  exact headerNames_last pre post h' p' e hp' (fun p'' hp'' => one _ hm' _ hm' _ _ e hp'' hp') hl

theorem headerCls_fields {names : Dict Str} {s : GSchema} {type : GTop → FType} {mro : List ClsId} {h : HeaderObj}
    {f : Field} : f ∈ (headerCls names s type mro h).fields ↔
      ∃ e ∈ s.elements, ∃ p, h.Part p e.name ∧
        f = { name := (Dict.get? names e.name).getD p, kind := .element, type := type e,
              nspace := some s.targetNamespace } := by
  constructor
  · intro hf
    obtain ⟨e, he, hf⟩ := List.mem_flatMap.1 hf
    obtain ⟨p, hp, rfl⟩ := List.mem_map.1 hf
    obtain ⟨hp, hn⟩ := List.mem_filter.1 hp
    exact ⟨e, he, p.1, ⟨p.2, header_sorted.1 hp, by simpa using hn⟩, rfl⟩
  · rintro ⟨e, he, p, ⟨g, hg, hn⟩, rfl⟩
    refine List.mem_flatMap.2 ⟨e, he, List.mem_map.2 ⟨(p, g), List.mem_filter.2 ⟨header_sorted.2 hg, by simpa using hn⟩, rfl⟩⟩

theorem header_field_named {hs : List HeaderObj} (one : OneName hs) {s : GSchema} {type : GTop → FType}
    {mro : List ClsId} {h : HeaderObj} (hm : h ∈ hs) {f : Field}
    (hf : f ∈ (headerCls (headerNames hs) s type mro h).fields) :
    f.kind = .element ∧ f.tagname = none ∧ ∃ e, h.Part f.name e := by
  obtain ⟨e, he, p, hp, rfl⟩ := headerCls_fields.1 hf
  refine ⟨rfl, rfl, e.name, ?_⟩
  rw [headerNames_one one hm hp]
  exact hp

/-- **C133.** If no element is a part of headers under two names, an instance of a header class is written with the
names of the **parts** as tags - whatever the elements are called: every child is called like a part, and for every
part with a value there is a child called like the part.  The tags are in the target namespace if the form is qualified. -/
theorem C133_written (T : Table) (n : Nat) (c : ClsId) (hs : List HeaderObj) (one : OneName hs) (s : GSchema)
    (type : GTop → FType) (mro : List ClsId) (h : HeaderObj) (hm : h ∈ hs)
    (hT : T c = headerCls (headerNames hs) s type mro h) (vals : List (Str × Val)) (x : Option Xml)
    (ns : Option Str) (q : Bool) (o : Out) (hr : renderCls T (n + 1) c (.inst c vals x) ns q = .ok o) :
    (∀ k ∈ o.kids, ∃ p e, h.Part p e ∧ ∃ tag a t ks, k = .elem tag a t ks ∧ tag.loc = p ∧
      ∀ u, tag.ns = some u ↔ q = true ∧ u ≠ [] ∧ u = s.targetNamespace) ∧
    ∀ p e, h.Part p e → e ∈ s.elements.map (·.name) →
      ∃ v, Dict.get? vals p = some v ∧ (v ≠ .none → ∃ k ∈ o.kids, k.Called p) := by
  have hh : (T c).header = false := by rw [hT]; rfl
  constructor
  · obtain ⟨parts, h1, h2⟩ := C23_children_in_declaration_order T n c c vals x ns q hh o hr
    intro k hk
    rw [h1] at hk
    obtain ⟨ks, hks, hk⟩ := List.mem_flatten.1 hk
    obtain ⟨f, hf, v, hv, hc⟩ := h2.mem_right hks
    rw [hT] at hf
    obtain ⟨hkind, htag, e, he⟩ := header_field_named one hm hf
    have hns : f.nspace = some s.targetNamespace := by
      obtain ⟨_, _, _, _, rfl⟩ := headerCls_fields.1 hf
      rfl
    refine ⟨f.name, e, he, ?_⟩
    cases hc with
    | single _ _ hc =>
      rw [List.mem_singleton] at hk; subst hk
      obtain ⟨a, t, sub, rfl⟩ := hc.tag
      refine ⟨_, a, t, sub, rfl, ?_, ?_⟩
      · rw [childName_loc]
        unfold Field.writtenName; rw [htag]; rfl
      · intro u
        unfold childName Field.nsIn
        rw [hns]
        cases q with
        | false => simp
        | true =>
          cases hn : s.targetNamespace with
          | nil => simp
          | cons a as =>
            simp
            constructor
            · rintro rfl; simp
            · rintro ⟨_, rfl⟩; rfl
    | absent h => cases hk
    | «attribute» h => cases hk
    | noName h => cases hk
    | noValue h => cases hk
    | groupAsText h => cases hk
    | list h => rw [hkind] at h; cases h
    | named h => rw [hkind] at h; cases h
    | noNameText h => rw [hkind] at h; cases h
    | group h => rw [hkind] at h; rcases h with h | h <;> cases h
    | other h => rw [hkind] at h; rcases h with h | h <;> cases h
  · intro p e hp he
    obtain ⟨g, hg, rfl⟩ := List.mem_map.1 he
    have hf : (⟨p, .element, type g, none, false, .atom .none, some s.targetNamespace, true, none, none⟩ : Field) ∈
        (T c).fields := by
      rw [hT]
      refine headerCls_fields.2 ⟨g, hg, p, hp, ?_⟩
      rw [headerNames_one one hm hp]; rfl
    obtain ⟨pre, post, hpp⟩ := List.append_of_mem hf
    obtain ⟨kpre, ks, kpost, v, h1, h2, h3, _⟩ := C23_order T n c c vals x ns q hh o hr pre post _ hpp
    refine ⟨v, h2, fun hv => ?_⟩
    cases h3 with
    | single _ _ hc =>
      obtain ⟨a, t, sub, rfl⟩ := hc.tag
      refine ⟨.elem _ a t sub, h1 ▸ List.mem_append_left _ (List.mem_append_right _ (List.mem_singleton_self _)), _, a, t,
        sub, rfl, ?_⟩
      rw [childName_loc]; rfl
    | absent h => exact absurd rfl hv
    | «attribute» h => cases h
    | noName h => cases h
    | noValue h => cases h
    | groupAsText h => rcases h with h | h <;> cases h
    | list h => cases h
    | named h => cases h
    | noNameText h => cases h
    | group h => rcases h with h | h <;> cases h
    | other h => rcases h with h | h <;> cases h

/-- **C133.** Hence the dispatcher of a service whose schemas declare no element called like a part of the header - it
rejects what is not declared - answers a message with such a header with a Client fault, and no method runs. -/
theorem C133_rejected (T : Table) (n : Nat) (c : ClsId) (hs : List HeaderObj) (one : OneName hs) (s : GSchema)
    (type : GTop → FType) (mro : List ClsId) (h : HeaderObj) (hm : h ∈ hs)
    (hT : T c = headerCls (headerNames hs) s type mro h) (vals : List (Str × Val)) (o : Out) (ns : Option Str) (qual : Bool)
    (hr : renderCls T (n + 1) c (.inst c vals none) ns qual = .ok o) (hne : o.kids ≠ [])
    (hwsa : s.targetNamespace ≠ nsWsa)
    (W : World) (d : DispId) (r : ReqId) (st : State) (q : Req) (doc x hx : Xml)
    (hq : st.reqs[r]? = some q) (hpost : IsPost q) (hmid : (W.disp d).middlewares = [])
    (h1 : (W.disp d).hooks.get? py"soap-request" = none) (h2 : (W.disp d).hooks.get? py"soap-response" = none)
    (hD : 4 ≤ W.depth) (hread : W.read q.content = some doc) (hp : PlainMessage doc (some hx) x) (hk : hx.kids = o.kids)
    (hstrict : (W.disp d).strict = true) (declared : List Str)
    (hval : ∀ y name, y.Called name → name ∉ declared → ∃ e, Invalid e ∧ (W.disp d).validator y = .error e)
    (hdecl : ∀ p e, h.Part p e → p ∉ declared) (hok : ∀ e, XmlOk (W.describe e)) :
    ∃ resp e, Invalid e ∧ outcome (dispatch W d r) st = .ok resp ∧ resp.status = 500 ∧
      resp.content = .bytes (W.write (faultDoc (W.disp d).service.version (clientCode (W.disp d).service.version)
        (W.describe e) none)) ∧
      happened (dispatch W d r) st = [] := by
  cases hkids : o.kids with
  | nil => exact absurd hkids hne
  | cons y post =>
    obtain ⟨p, e, hpe, tag, a, t, ks, rfl, hloc, hns⟩ :=
      (C133_written T n c hs one s type mro h hm hT vals none ns qual o hr).1 y (by rw [hkids]; simp)
    obtain ⟨ex, hinv, hv⟩ := hval _ p ⟨tag, a, t, ks, rfl, hloc⟩ (hdecl p e hpe)
    obtain ⟨resp, h3, h4, h5, h6⟩ := C49_rejected W d r st q doc x hx _ [] post ex hq hpost hmid h1 h2 hD hread hp
      (by rw [hk, hkids]; rfl) (fun _ hz => by cases hz)
      ⟨tag, a, t, ks, rfl, .inr ⟨fun he => hwsa ((hns _).1 he).2.2.symm, hstrict, hv⟩⟩ hinv (hok ex)
    exact ⟨resp, ex, hinv, h3, h4, h5, h6⟩

/-- **C133.** A header as the WSDL document describes it - children called like the **elements** - is read as an empty
one, unless an element is called like a part. -/
theorem C133_ignored (T : Table) (N n : Nat) (c : ClsId) (hs : List HeaderObj) (one : OneName hs) (s : GSchema)
    (type : GTop → FType) (mro : List ClsId) (h : HeaderObj) (hm : h ∈ hs)
    (hT : T c = headerCls (headerNames hs) s type mro h)
    (tag : QName) (a : List (QName × Str)) (t : Option Str) (ks : List Xml)
    (hk : ∀ k ∈ ks, ∃ p e, h.Part p e ∧ k.Called e) (hne : ∀ p e p' e', h.Part p e → h.Part p' e' → e ≠ p')
    (v : Val) (hv : parseCls T N n c (.elem tag a t ks) = .ok v) :
    ∃ w, parseCls T N n c (.elem tag a t []) = .ok w ∧ v.SameFields w := by
  refine C28_C29_irrelevant_changes T N n c tag a t ks [] ?_ v hv
  clear hv
  induction ks with
  | nil => exact .nil
  | cons k ks ih =>
    obtain ⟨p, e, hp, q, a', t', ks', rfl, hq⟩ := hk k (by simp)
    refine .remove ?_ (by simp) (ih fun k hm => hk k (by simp [hm]))
    rintro f hf ⟨q', a'', t'', k'', he, hcl⟩
    injection he with he; subst he
    have hf : f ∈ (T c).fields := by
      cases hf with
      | field _ hf => exact (List.mem_filter.1 hf).1
      | group hg _ _ =>
        obtain ⟨hg, hkind⟩ := List.mem_filter.1 hg
        rw [hT] at hg
        rw [(header_field_named one hm hg).1] at hkind
        cases hkind
      | choice hc => rw [hT] at hc; cases hc
    rw [hT] at hf
    obtain ⟨_, htag, e', he'⟩ := header_field_named one hm hf
    rw [htag] at hcl
    rcases hcl with hcl | hcl
    · exact hne p e f.name e' hp he' (by rw [← hq, hcl])
    · cases hcl

/-- **C133.** If header classes have an element in common, under different part names, the field has the name of the
part in the **last** of the classes - in the earlier ones, too; there, the part's own name is not a field unless another
element has got it. -/
theorem C133_shared (pre mid post : List HeaderObj) (h h' : HeaderObj) (s : GSchema) (type : GTop → FType)
    (mro : List ClsId) (e : GTop) (he : e ∈ s.elements) (p p' : Str) (hp : h.Part p e.name) (hp' : h'.Part p' e.name)
    (h1 : ∀ p'', h'.Part p'' e.name → p'' = p') (h2 : ∀ h'' ∈ post, ∀ p'', ¬ h''.Part p'' e.name) :
    let names := headerNames (pre ++ h :: mid ++ h' :: post)
    (∃ f ∈ (headerCls names s type mro h).fields, f.name = p' ∧ f.type = type e) ∧
    ((∀ e' p'', h.Part p'' e' → e' = e.name) → p ≠ p' → ∀ f ∈ (headerCls names s type mro h).fields, f.name ≠ p) := by
  intro names
  have hn : Dict.get? names e.name = some p' := headerNames_last (pre ++ h :: mid) post h' p' e.name hp' h1 h2
  constructor
  · exact ⟨_, headerCls_fields.2 ⟨e, he, p, hp, rfl⟩, by simp [hn], rfl⟩
  · intro ho hne f hf hfn
    obtain ⟨e', he', p'', hp'', rfl⟩ := headerCls_fields.1 hf
    rw [ho _ _ hp''] at hfn
    simp only [hn, Option.getD_some] at hfn
    exact hne hfn.symm

namespace ExHeaderClasses

def session : GTop := { name := py"SessionHeader", type := .inst none }
def schema : GSchema := { targetNamespace := py"http://a", qualified := true, elements := [session] }
def ask : HeaderObj := { name := py"AskHeaders", elements := [(py"header", session)] }
def reply : HeaderObj := { name := py"ReplyHeaders", elements := [(py"session", session)] }

/-- The element of one header class is called like its part ... -/
example : (headerCls (headerNames [ask]) schema (fun _ => .complex 1) [] ask).fields.map (·.name) = [py"header"] := by
  decide +kernel

/-- ... until another class is created. -/
example : (headerCls (headerNames [ask, reply]) schema (fun _ => .complex 1) [] ask).fields.map (·.name) =
    [py"session"] := by decide +kernel

theorem ask_part {p e : Str} (h : ask.Part p e) : p = py"header" ∧ e = py"SessionHeader" := by
  obtain ⟨g, hg, rfl⟩ := h
  rw [show ask.elements = [(py"header", session)] from rfl, List.mem_singleton] at hg
  cases hg
  exact ⟨rfl, rfl⟩

theorem one : OneName [ask] := by
  intro h hm h' hm' p p' e hp hp'
  rw [List.mem_singleton] at hm hm'
  subst hm hm'
  rw [(ask_part hp).1, (ask_part hp').1]

def table : Table := fun _ => headerCls (headerNames [ask]) schema (fun _ => .complex 1) [] ask

/-- A SessionHeader as the WSDL document asks for is not read. -/
example (N n : Nat) (v : Val) (ks : List Xml)
    (hv : parseCls table N n 0 (.elem ⟨none, py"Header"⟩ [] none [.elem ⟨some py"http://a", py"SessionHeader"⟩ [] none ks]) =
      .ok v) :
    ∃ w, parseCls table N n 0 (.elem ⟨none, py"Header"⟩ [] none []) = .ok w ∧ v.SameFields w := by
  refine C133_ignored table N n 0 [ask] one schema _ [] ask (by simp) rfl _ _ _ _ ?_ ?_ v hv
  · intro k hk
    rw [List.mem_singleton] at hk; subst hk
    exact ⟨py"header", py"SessionHeader", ⟨session, by simp [ask], rfl⟩, _, _, _, _, rfl, rfl⟩
  · intro p e p' e' hp hp'
    rw [(ask_part hp).2, (ask_part hp').1]
    decide +kernel

/-- What is written is called `header`. -/
example (n : Nat) (vals : List (Str × Val)) (o : Out)
    (h : renderCls table (n + 1) 0 (.inst 0 vals none) none true = .ok o) : ∀ k ∈ o.kids, k.Called py"header" := by
  intro k hk
  obtain ⟨p, e, hp, tag, a, t, ks, rfl, hc, _⟩ :=
    (C133_written table n 0 [ask] one schema _ [] ask (by simp) rfl vals none none true o h).1 k hk
  rw [(ask_part hp).1] at hc
  exact ⟨tag, a, t, ks, rfl, hc⟩

end ExHeaderClasses

end Soapfish
