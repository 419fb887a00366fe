import Verif.ServeLemmas
import Verif.Props.Schemas
import Verif.Props.Encoding
/-
Making a dispatcher, and the links in the documents that it serves (C93).
-/
namespace Soapfish

/-! ### Links -/

theorem relink_longer {as : List (QName × Str)} (h : relink as = .ok as) : False := by
  induction as with
  | nil => cases h
  | cons p as ih =>
    obtain ⟨q, v⟩ := p
    rw [relink] at h
    split at h
    · injection h with h
      simp only [List.cons.injEq, Prod.mk.injEq, true_and] at h
      have := congrArg List.length h.1
      simp at this
      omega
    · obtain ⟨bs, h1, h2⟩ := bindI h
      injection h2 with h2
      simp only [List.cons.injEq, true_and] at h2
      subst h2
      exact ih h1

theorem isLink_of {k : Xml} {loc : Option Str} (h : IsLink k loc) : ∃ q a t ks, k = .elem q a t ks ∧ isLink q = true := by
  rcases h.1 with ⟨a, t, ks, rfl⟩ | ⟨a, t, ks, rfl⟩ <;> exact ⟨_, _, _, _, rfl, by simp [isLink]⟩

mutual
theorem noLinks : ∀ (x : Xml), rewriteLocations x = .ok x → ∀ k, Within x k → ∀ l, ¬ IsLink k l
  | .elem q as t ks, h, k, hw, l, hl => by
    rw [rewriteLocations] at h
    obtain ⟨as', h1, h⟩ := bindI h
    obtain ⟨ks', h2, h⟩ := bindI h
    cases h
    rcases hw.cases_head with rfl | ⟨c, hc, hw⟩
    · obtain ⟨q', a, t', k', he, hq⟩ := isLink_of hl
      cases he
      rw [if_pos hq] at h1
      exact relink_longer h1
    · exact noLinksAll ks h2 c hc k hw l hl
  | .comment, _, k, hw, l, hl => by
    rcases hw.cases_head with rfl | ⟨c, hc, _⟩
    · obtain ⟨_, _, _, _, he, _⟩ := isLink_of hl; cases he
    · cases hc
  | .pi, _, k, hw, l, hl => by
    rcases hw.cases_head with rfl | ⟨c, hc, _⟩
    · obtain ⟨_, _, _, _, he, _⟩ := isLink_of hl; cases he
    · cases hc
theorem noLinksAll : ∀ (xs : List Xml), rewriteAll xs = .ok xs → ∀ x ∈ xs, ∀ k, Within x k → ∀ l, ¬ IsLink k l
  | [], _, _, hx, _, _, _, _ => by cases hx
  | x :: xs, h, y, hy, k, hw, l, hl => by
    rw [rewriteAll] at h
    obtain ⟨x', h1, h⟩ := bindI h
    obtain ⟨xs', h2, h⟩ := bindI h
    cases h
    rcases List.mem_cons.1 hy with hyx | hy
    · rw [hyx] at hw
      exact noLinks x h1 k hw l hl
    · exact noLinksAll xs h2 y hy k hw l hl
end

theorem link_import {n : Str} {l : Str} {k : Xml} {loc : Option Str} (hw : Within (importDoc (n, some (py"?xsd=" ++ l))) k)
    (hl : IsLink k loc) : loc = some (py"?xsd=" ++ l) := by
  rcases hw.cases_head with rfl | ⟨c, hc, _⟩
  · rw [← hl.2]
    simp only [importDoc, given_link]
    rfl
  · cases hc

theorem link_include {l : Str} {k : Xml} {loc : Option Str} (hw : Within (includeDoc (some (py"?xsd=" ++ l))) k)
    (hl : IsLink k loc) : loc = some (py"?xsd=" ++ l) := by
  rcases hw.cases_head with rfl | ⟨c, hc, _⟩
  · rw [← hl.2]
    simp only [includeDoc, given_link]
    rfl
  · cases hc

theorem links_document {s : GSchema} (h : s.Located) {k : Xml} {loc : Option Str} (hw : Within (document s.linked) k)
    (hl : IsLink k loc) :
    ∃ l, l ≠ [] ∧ loc = some (py"?xsd=" ++ l) ∧ ((∃ i ∈ s.imports, i.2 = some l) ∨ some l ∈ s.includes) := by
  rcases hw.cases_head with rfl | ⟨c, hc, hw⟩
  · obtain ⟨q, _, _, _, he, hq⟩ := isLink_of hl
    cases he
    exact absurd hq (by decide)
  · replace hc : c ∈ s.linked.imports.map importDoc ++ s.linked.includes.map includeDoc ++ s.simpleTypes.map simpleDoc ++
      s.complexTypes.map (complexDoc · true) ++ s.elements.map topDoc := hc
    simp only [List.mem_append, List.mem_map, GSchema.linked] at hc
    rcases hc with (((⟨i, ⟨j, hj, rfl⟩, rfl⟩ | ⟨i, ⟨j, hj, rfl⟩, rfl⟩) | ⟨st, _, rfl⟩) | ⟨ct, _, rfl⟩) | ⟨e, _, rfl⟩
    · obtain ⟨l, h1, h2⟩ := h.1 j hj
      rw [h1] at hw
      exact ⟨l, h2, link_import hw hl, .inl ⟨j, hj, h1⟩⟩
    · obtain ⟨l, h1, h2⟩ := h.2 j hj
      rw [h1] at hw
      exact ⟨l, h2, link_include hw hl, .inr (h1 ▸ hj)⟩
    · exact absurd hl (noLinks _ (rewrite_simple st) _ hw _)
    · exact absurd hl (noLinks _ (rewrite_complex ct true) _ hw _)
    · exact absurd hl (noLinks _ (rewrite_top e) _ hw _)

theorem Within.inside {x c k : Xml} (hw : Within c k) (hc : Within x c) : Within x k := by
  induction hw with
  | self => exact hc
  | child _ hk ih => exact ih.child hk

theorem not_link_wsdl {n : Str} {as : List (Str × Str)} {ks : List Xml} {loc : Option Str} : ¬ IsLink (wsdlNode n as ks) loc := by
  intro hl
  obtain ⟨q, _, _, _, he, hq⟩ := isLink_of hl
  simp only [wsdlNode, Xml.elem.injEq] at he
  rw [← he.1] at hq
  have : nsWsdl ≠ nsXsd := by decide
  simp [isLink, this] at hq

theorem links_wsdl {s : WService} {k : Xml} {loc : Option Str} (hw : Within (wsdlDocument s) k) (hl : IsLink k loc) :
    ∃ g ∈ s.schemas, Within (document g) k := by
  have h0 := noLinks _ (rewrite_wsdl (s := { s with schemas := [] }) (by simp))
  rcases hw.cases_head with rfl | ⟨c, hc, hw⟩
  · exact absurd hl not_link_wsdl
  · have hc' : c = wsdlNode py"types" [] (s.schemas.map document) ∨ c ∈ (wsdlDocument { s with schemas := [] }).children := by
      simp only [wsdlDocument, wsdlNode, Xml.children, List.mem_append, List.mem_singleton] at hc ⊢
      rcases hc with (((hc | hc) | hc) | hc) | hc
      · exact .inl hc
      · exact .inr (.inl (.inl (.inl (.inr hc))))
      · exact .inr (.inl (.inl (.inr hc)))
      · exact .inr (.inl (.inr hc))
      · exact .inr (.inr hc)
    rcases hc' with rfl | hc'
    · rcases hw.cases_head with rfl | ⟨c, hc, hw⟩
      · exact absurd hl not_link_wsdl
      · obtain ⟨g, hg, rfl⟩ := List.mem_map.1 hc
        exact ⟨g, hg, hw⟩
    · exact absurd hl (h0 k (hw.inside (Within.self.child hc')) loc)

/-! ### The walk -/

theorem walk_parent {W : World} {β : Type} {cb : SchemaId → Except Exn β} (n : Nat) :
    ∀ (roots : List SchemaId) (seen seen' : List (Option Str × β)), walkSchemaTree W cb n roots seen = .ok seen' →
    ∀ p ∈ seen', p ∈ seen ∨ ∃ r i, (r ∈ roots ∨ ∃ v, cb r = .ok v) ∧ Refers W r i ∧ (W.schema i).location = p.1 := by
  have fold : ∀ {α : Type} {f : List (Option Str × β) → α → Except Exn (List (Option Str × β))} {P : Option Str × β → Prop}
      {l : List α} (_ : ∀ a ∈ l, ∀ s s', f s a = .ok s' → ∀ p ∈ s', p ∈ s ∨ P p) {s s'}, foldE f s l = .ok s' →
      ∀ p ∈ s', p ∈ s ∨ P p := by
    intro α f P l hf s s' h
    induction l generalizing s with
    | nil => cases h; exact fun p hp => .inl hp
    | cons a l ih =>
      rw [foldE] at h
      obtain ⟨m, h1, h2⟩ := bindI h
      intro p hp
      rcases ih (fun b hb => hf b (List.mem_cons_of_mem _ hb)) h2 p hp with hm | hp
      · exact hf a (List.mem_cons_self ..) s m h1 p hm
      · exact .inr hp
  induction n with
  | zero => intro roots seen seen' h; cases h
  | succ n ih =>
    intro roots seen seen' h
    rw [walkSchemaTree] at h
    refine fold ?_ h
    intro r hr s s' h
    refine fold ?_ h
    intro item hi s s' h
    split at h
    · cases h; exact fun p hp => .inl hp
    · obtain ⟨v, h1, h2⟩ := bindI h
      intro p hp
      rcases ih _ _ _ h2 p hp with hp | ⟨r', i, h3, h4, h5⟩
      · rcases List.mem_append.1 hp with hp | hp
        · exact .inl hp
        · rw [List.mem_singleton] at hp
          subst hp
          exact .inr ⟨r, item, .inl hr, mem_items.1 hi, rfl⟩
      · refine .inr ⟨r', i, .inr ?_, h4, h5⟩
        rcases h3 with h3 | h3
        · rw [List.mem_singleton] at h3
          subst h3
          exact ⟨v, h1⟩
        · exact h3

theorem choose_each {α β : Type} {R : α → β → Prop} (l : List β) (h : ∀ b ∈ l, ∃ a, R a b) : ∃ as, All2 R as l := by
  induction l with
  | nil => exact ⟨[], .nil⟩
  | cons b l ih =>
    obtain ⟨a, ha⟩ := h b (List.mem_cons_self ..)
    obtain ⟨as, has⟩ := ih fun c hc => h c (List.mem_cons_of_mem _ hc)
    exact ⟨a :: as, .cons ha has⟩

theorem all2_mapped {α β : Type} {R : α → β → Prop} {f : α → β} {as : List α} {l : List β} (h : All2 R as l)
    (hR : ∀ a b, R a b → b = f a) : l = as.map f := by
  induction h with
  | nil => rfl
  | cons h _ ih => rw [List.map_cons, ← ih, hR _ _ h]

/-! ### C93 -/

section
variable (W : World) (types : SchemaId → GSchema)
  (compile : Xml → List (Option Str × SchemaId) → Except Exn (Xml → Except Exn Unit)) (service : Service) (info : WService)
  (middlewares : List Middleware) (hooks : Dict Hook) (strict : Bool)

theorem shown_located {W : World} {types : SchemaId → GSchema} {i : SchemaId} :
    (W.shown types i).Located ↔ ∀ j, Refers W i j → ∃ l, (W.schema j).location = some l ∧ l ≠ [] := by
  constructor
  · intro h j hj
    rcases hj with hj | hj
    · exact h.1 _ (List.mem_map.2 ⟨j, hj, rfl⟩)
    · exact h.2 _ (List.mem_map.2 ⟨j, hj, rfl⟩)
  · intro h
    refine ⟨fun p hp => ?_, fun p hp => ?_⟩
    · obtain ⟨j, hj, rfl⟩ := List.mem_map.1 hp
      exact h j (.inl hj)
    · obtain ⟨j, hj, rfl⟩ := List.mem_map.1 hp
      exact h j (.inr hj)

theorem callback_of {W : World} {types : SchemaId → GSchema} {v : Version} (hd : 12 ≤ W.depth) {i : SchemaId} {b : Bytes} :
    (do
      let xsd ← generateSchema v W.depth (W.shown types i)
      let xsd ← rewriteLocations xsd
      .ok (W.write xsd) : Except Exn Bytes) = .ok b ↔
    (Buildable (W.shown types i) ∧ Writable (W.shown types i)) ∧ (W.shown types i).Located ∧
      b = W.write (document (W.shown types i).linked) := by
  obtain ⟨D, hD⟩ : ∃ D, W.depth = D + 12 := ⟨W.depth - 12, by omega⟩
  rw [hD]
  constructor
  · intro h
    obtain ⟨x, h1, h⟩ := bindI h
    obtain ⟨y, h2, h⟩ := bindI h
    obtain ⟨hb, rfl⟩ := (C79_document _ _ _ _).1 h1
    have hl := located_of h2
    rw [rewrite_document hl] at h2
    cases h2
    cases h
    exact ⟨hb, hl, rfl⟩
  · rintro ⟨hb, hl, rfl⟩
    rw [(C79_document v D _ _).2 ⟨hb, rfl⟩]
    simp only [Except_ok_bind, rewrite_document hl]

/-- **C93 (documents).** What a dispatcher serves when it could be made. -/
theorem C93_documents (d : Dispatcher) (hd : 12 ≤ W.depth)
    (h : newDispatcher W types compile service info middlewares hooks strict = .ok d) :
    (∃ served, Serving W types info service.schemas d served) ∧ (∃ i, service.schemas = [i]) ∧ d.service = service ∧
      d.middlewares = middlewares ∧ d.hooks = hooks ∧ d.strict = strict := by
  obtain ⟨D, hD⟩ : ∃ D, W.depth = D + 12 := ⟨W.depth - 12, by omega⟩
  unfold newDispatcher at h
  obtain ⟨val, hval, h⟩ := bindI h
  obtain ⟨_, _, h⟩ := bindI h
  obtain ⟨w, hw, h⟩ := bindI h
  obtain ⟨w', hw', h⟩ := bindI h
  obtain ⟨xs, hxs, h⟩ := bindI h
  cases h
  rw [hD] at hw
  obtain ⟨_, rfl⟩ := (C81_document _ _ _).1 hw
  have hloc := located_wsdl hw'
  rw [rewrite_wsdl hloc] at hw'
  cases hw'
  have hroot : ∀ i ∈ service.schemas, (W.shown types i).Located := fun i hi => hloc _ (List.mem_map.2 ⟨i, hi, rfl⟩)
  refine ⟨?_, ?_, rfl, rfl, rfl, rfl⟩
  · obtain ⟨new, hnew, hnd, h3, h4⟩ := walk_ext _ _ _ _ hxs
    rw [List.nil_append] at hnew
    subst hnew
    have hpar := walk_parent _ _ _ _ hxs
    obtain ⟨served, hs⟩ := choose_each xs h3
    have hmap : xs = served.map fun i => ((W.schema i).location, W.write (document (W.shown types i).linked)) := by
      refine all2_mapped hs fun i p hp => ?_
      obtain ⟨_, h1, h2, _⟩ := hp
      rw [h1, ← ((callback_of hd).1 h2).2.2]
    have hkeys : xs.map (·.1) = served.map fun i => (W.schema i).location := by
      rw [hmap, List.map_map]; rfl
    have hmem : ∀ l, l ∈ xs.map (·.1) → ∃ k ∈ served, (W.schema k).location = l := by
      intro l hl
      rw [hkeys] at hl
      exact List.mem_map.1 hl
    refine ⟨served, ⟨?_, hmap, ?_, ?_, ?_, ?_⟩⟩
    · show W.write _ = _
      rw [List.map_map]
      rfl
    · intro i hi
      obtain ⟨p, hp, h1⟩ := hs.mem_left hi
      exact h1.1
    · rw [← hkeys]
      exact hnd (by simp)
    · intro i hi j hj
      rcases List.mem_append.1 hi with hi | hi
      · exact hmem _ (h4 j ⟨i, hi, hj⟩)
      · obtain ⟨p, hp, h1⟩ := hs.mem_left hi
        exact hmem _ (h1.2.2.2 j hj)
    · intro k hk
      have : ((W.schema k).location, W.write (document (W.shown types k).linked)) ∈ xs := by
        rw [hmap]; exact List.mem_map.2 ⟨k, hk, rfl⟩
      rcases hpar _ this with h1 | ⟨r, i, h1, h2, h3⟩
      · cases h1
      · simp only at h3
        rw [← h3]
        rcases h1 with h1 | ⟨v, h1⟩
        · exact shown_located.1 (hroot r h1) i h2
        · exact shown_located.1 ((callback_of hd).1 h1).2.1 i h2
  · unfold schemaValidator at hval
    obtain ⟨_, _, hval⟩ := bindI hval
    obtain ⟨ys, hys, hval⟩ := bindI hval
    split at hval
    · have := (mapE_all2 hys).length
      match hsch : service.schemas, this with
      | [i], _ => exact ⟨i, rfl⟩
    · cases hval

/-- **C93 (all).** If locations identify the schemas, all reachable ones are served. -/
theorem C93_all (d : Dispatcher) (served : List SchemaId) (h : Serving W types info service.schemas d served)
    (hinj : ∀ i j, Reaches W service.schemas i → Reaches W service.schemas j →
      (W.schema i).location = (W.schema j).location → i = j)
    (i : SchemaId) (hi : Reaches W service.schemas i) : i ∈ served := by
  induction hi with
  | root hr h1 =>
    obtain ⟨k, h2, h3⟩ := h.complete _ (List.mem_append_left _ hr) _ h1
    rw [← hinj k _ (h.reached k h2) (.root hr h1) h3]
    exact h2
  | next hr h1 ih =>
    obtain ⟨k, h2, h3⟩ := h.complete _ (List.mem_append_right _ ih) _ h1
    rw [← hinj k _ (h.reached k h2) (.next hr h1) h3]
    exact h2

/-- **C93 (links).** Every link in a served document is `?xsd=` and the location of a served schema. -/
theorem C93_links (d : Dispatcher) (served : List SchemaId) (h : Serving W types info service.schemas d served) (x k : Xml)
    (loc : Option Str) (hx : ServedDocument W types info service.schemas served x) (hk : Within x k) (hl : IsLink k loc) :
    ∃ i ∈ served, ∃ l, (W.schema i).location = some l ∧ l ≠ [] ∧ loc = some (py"?xsd=" ++ l) := by
  have main : ∀ i ∈ service.schemas ++ served, Within (document (W.shown types i).linked) k →
      ∃ i ∈ served, ∃ l, (W.schema i).location = some l ∧ l ≠ [] ∧ loc = some (py"?xsd=" ++ l) := by
    intro i hi hw
    have hloc : (W.shown types i).Located := shown_located.2 fun j hj => by
      obtain ⟨m, h1, h2⟩ := h.complete i hi j hj
      rw [← h2]
      exact h.located m h1
    obtain ⟨l, h1, h2, h3⟩ := links_document hloc hw hl
    have : ∃ j, Refers W i j ∧ (W.schema j).location = some l := by
      rcases h3 with ⟨p, hp, h3⟩ | h3
      · obtain ⟨j, hj, rfl⟩ := List.mem_map.1 hp
        exact ⟨j, .inl hj, h3⟩
      · obtain ⟨j, hj, h3⟩ := List.mem_map.1 h3
        exact ⟨j, .inr hj, h3⟩
    obtain ⟨j, h4, h5⟩ := this
    obtain ⟨m, h6, h7⟩ := h.complete i hi j h4
    exact ⟨m, h6, l, h7.trans h5, h1, h2⟩
  rcases hx with rfl | ⟨i, hi, rfl⟩
  · obtain ⟨g, hg, hw⟩ := links_wsdl hk hl
    obtain ⟨i, hi, rfl⟩ := List.mem_map.1 hg
    exact main i (List.mem_append_left _ hi) hw
  · exact main i (List.mem_append_right _ hi) hk

theorem plain_encoded {l : Str} (h1 : '%' ∉ l) (h2 : '+' ∉ l) : FormEncoded l l := by
  induction l with
  | nil => exact .nil
  | cons c l ih =>
    simp only [List.mem_cons, not_or] at h1 h2
    exact .keep (Ne.symm h1.1) (Ne.symm h2.1) (ih h1.2 h2.2)

theorem first_served {W : World} {f : SchemaId → Bytes} {served : List SchemaId}
    (hn : (served.map fun i => (W.schema i).location).Nodup) {i : SchemaId} (hi : i ∈ served) {l : Str}
    (hl : (W.schema i).location = some l) :
    First (fun p => p.1 = some l) (served.map fun i => ((W.schema i).location, f i)) (some l, f i) := by
  induction served with
  | nil => cases hi
  | cons k ks ih =>
    rw [List.map_cons, List.nodup_cons] at hn
    rcases List.mem_cons.1 hi with rfl | hi
    · exact ⟨[], ks.map fun i => ((W.schema i).location, f i), by rw [List.map_cons, hl]; rfl, rfl, by simp⟩
    · obtain ⟨pre, post, h1, h2, h3⟩ := ih hn.2 hi
      refine ⟨((W.schema k).location, f k) :: pre, post, by rw [List.map_cons, h1]; rfl, h2, ?_⟩
      intro b hb
      rcases List.mem_cons.1 hb with rfl | hb
      · intro he
        exact hn.1 (List.mem_map.2 ⟨i, hi, hl.trans he.symm⟩)
      · exact h3 b hb

/-- **C93 (follow).** Following the link of a served schema gives its document, if no character of the location has a
meaning of its own in a query. -/
theorem C93_follow (d : DispId) (served : List SchemaId) (h : Serving W types info service.schemas (W.disp d) served)
    (i : SchemaId) (hi : i ∈ served) (l : Str) (hl : (W.schema i).location = some l) (h1 : '&' ∉ l) (h2 : '%' ∉ l)
    (h3 : '+' ∉ l) (r : ReqId) (s : State) (q : Req) (hq : s.reqs[r]? = some q)
    (hget : q.environ py"REQUEST_METHOD" = some py"GET") (hqs : q.environ py"QUERY_STRING" = some (py"xsd=" ++ l))
    (hh1 : (W.disp d).hooks.get? py"xsd-request" = none) (hh2 : (W.disp d).hooks.get? py"wsdl-response" = none) :
    ∃ resp, outcome (dispatch W d r) s = .ok resp ∧ resp.status = 200 ∧
      resp.content = .bytes (W.write (document (W.shown types i).linked)) := by
  have hne : l ≠ [] := by
    obtain ⟨l', h4, h5⟩ := h.located i hi
    rw [hl] at h4
    cases h4
    exact h5
  have hf := first_served (f := fun i => W.write (document (W.shown types i).linked)) h.once hi hl
  rw [← h.xsds] at hf
  obtain ⟨resp, h4, h5, h6⟩ := C71_served W d r s q l l _ hq hget hqs (plain_encoded h2 h3) h1 hne hh1 hh2 hf
  exact ⟨resp, h4, h6, h5⟩

/-- **C93 (plus sign).** Links are not encoded: that of a schema whose location contains a plus sign asks for a location
with a blank instead. -/
theorem C93_plus (d : DispId) (served : List SchemaId) (h : Serving W types info service.schemas (W.disp d) served)
    (pre post : Str) (h1 : '&' ∉ pre ++ post) (h2 : '%' ∉ pre ++ post) (h3 : '+' ∉ pre ++ post)
    (hno : ∀ i ∈ served, (W.schema i).location ≠ some (pre ++ ' ' :: post)) (r : ReqId) (s : State) (q : Req)
    (hq : s.reqs[r]? = some q) (hget : q.environ py"REQUEST_METHOD" = some py"GET")
    (hqs : q.environ py"QUERY_STRING" = some (py"xsd=" ++ (pre ++ '+' :: post)))
    (hh1 : (W.disp d).hooks.get? py"xsd-request" = none) (hh2 : (W.disp d).hooks.get? py"wsdl-response" = none) :
    ∃ resp, outcome (dispatch W d r) s = .ok resp ∧ resp.content = .str py"not_found" := by
  have he : FormEncoded (pre ++ ' ' :: post) (pre ++ '+' :: post) := by
    simp only [List.mem_append, not_or] at h2 h3
    have tail := FormEncoded.blank (plain_encoded h2.2 h3.2)
    replace h2 := h2.1
    replace h3 := h3.1
    clear hqs hno h1
    induction pre with
    | nil => exact tail
    | cons c pre ih =>
      simp only [List.mem_cons, not_or] at h2 h3
      exact .keep (Ne.symm h2.1) (Ne.symm h3.1) (ih h2.2 h3.2)
  have hamp : '&' ∉ pre ++ '+' :: post := by
    simp only [List.mem_append, not_or] at h1
    simp [h1.1, h1.2]
  obtain ⟨ha, hn⟩ := asks_encoded hget hqs he hamp (by simp)
  refine ⟨_, congrArg Prod.fst (C48_not_found W d r s q _ hq ha hh1 hh2 hn ?_), rfl⟩
  intro p hp
  rw [h.xsds] at hp
  obtain ⟨i, hi, rfl⟩ := List.mem_map.1 hp
  exact hno i hi

/-- **C93 (missing location).** With an import or include without a location no dispatcher can be made. -/
theorem C93_missing (hd : 12 ≤ W.depth) (i j : SchemaId) (hi : i ∈ service.schemas) (hj : Refers W i j)
    (hl : ∀ l, (W.schema j).location = some l → l = []) (d : Dispatcher) :
    newDispatcher W types compile service info middlewares hooks strict ≠ .ok d := by
  intro h
  obtain ⟨⟨served, hs⟩, _⟩ := C93_documents W types compile service info middlewares hooks strict d hd h
  obtain ⟨k, h1, h2⟩ := hs.complete i (List.mem_append_left _ hi) j hj
  obtain ⟨l, h3, h4⟩ := hs.located k h1
  exact h4 (hl l (h2.symm.trans h3))

/-- **C93 (makeable).** A dispatcher can be made for a service with one schema if the documents can be generated, all
imports and includes have locations, and lxml accepts the schema. -/
theorem C93_makeable (i : SchemaId) (hone : service.schemas = [i]) (hd : 12 ≤ W.depth) (locs : List (Option Str))
    (hlocs : ∀ j, Reaches W [i] j → (W.schema j).location ∈ locs) (hlen : locs.length < W.depth)
    (hgen : ∀ j, j = i ∨ Reaches W [i] j → Buildable (W.shown types j) ∧ Writable (W.shown types j) ∧
      ∀ k, Refers W j k → ∃ l, (W.schema k).location = some l ∧ l ≠ [])
    (hwsdl : WsdlBuildable { info with schemas := [W.shown types i] } ∧ WsdlWritable { info with schemas := [W.shown types i] })
    (hcompile : ∀ lookup, ∃ f, compile (document (W.shown types i)) lookup = .ok f)
    (hhooks : checkHooks hooks.keys = .ok ()) :
    ∃ d, newDispatcher W types compile service info middlewares hooks strict = .ok d := by
  obtain ⟨D, hD⟩ : ∃ D, W.depth = D + 12 := ⟨W.depth - 12, by omega⟩
  have hloc : ∀ j, j = i ∨ Reaches W [i] j → (W.shown types j).Located := fun j hj => shown_located.2 (hgen j hj).2.2
  obtain ⟨lookup, h1⟩ := C57_terminates W Except.ok [i] locs hlocs (fun j _ => ⟨j, rfl⟩) W.depth hlen
  obtain ⟨xs, h2⟩ := C57_terminates W (fun i => do
    let xsd ← generateSchema info.version W.depth (W.shown types i)
    let xsd ← rewriteLocations xsd
    .ok (W.write xsd)) [i] locs hlocs (fun j hj => ⟨_, (callback_of hd).2
      ⟨⟨(hgen j (.inr hj)).1, (hgen j (.inr hj)).2.1⟩, hloc j (.inr hj), rfl⟩⟩) W.depth hlen
  obtain ⟨f, h3⟩ := hcompile lookup
  have h4 : generateSchema info.version W.depth (W.shown types i) = .ok (document (W.shown types i)) := by
    rw [hD]
    exact (C79_document _ _ _ _).2 ⟨⟨(hgen i (.inl rfl)).1, (hgen i (.inl rfl)).2.1⟩, rfl⟩
  have h5 : generateWsdl W.depth { info with schemas := [W.shown types i] } =
      .ok (wsdlDocument { info with schemas := [W.shown types i] }) := by
    rw [hD]
    exact (C81_document _ _ _).2 ⟨⟨hwsdl.1, by simp, hwsdl.2⟩, rfl⟩
  have h6 := rewrite_wsdl (s := { info with schemas := [W.shown types i] }) (by
    intro g hg
    rw [List.mem_singleton] at hg
    subst hg
    exact hloc i (.inl rfl))
  unfold newDispatcher schemaValidator
  rw [hone]
  simp only [h1, Except_ok_bind, mapE, h4, h3, hhooks, List.map_cons, List.map_nil, h5, h6, h2]
  exact ⟨_, rfl⟩

end

namespace Ex

/-- Schema 0 imports 1 (`types.xsd`), which includes 2 (`a+b.xsd`); 3 imports 4, which has no location. -/
def linkedSchemas : SchemaId → Schema
  | 0 => ⟨py"urn:x", false, [], [1], [], none⟩
  | 1 => ⟨py"urn:y", false, [], [], [2], some py"types.xsd"⟩
  | 2 => ⟨py"urn:y", false, [], [], [], some py"a+b.xsd"⟩
  | 3 => ⟨py"urn:z", false, [], [4], [], none⟩
  | _ => ⟨py"urn:w", false, [], [], [], none⟩

def linkedWorld : World where
  user := fun n => { name := py"Other", mro := [n, 0], fields := [] }
  depth := 20
  method := ExSchemas.methods
  schema := linkedSchemas
  disp := fun _ => ⟨{ schemas := [0], methods := [] }, [], [], [], [], false, fun _ => .ok ()⟩
  read := fun _ => none
  write := fun x => [x.children.length]
  encode := fun _ => []
  decode := fun _ => .ok []
  wsaValid := fun _ => .ok ()
  describe := fun _ => []
  traceback := fun _ => []

def noTypes (_ : SchemaId) : GSchema := ⟨[], false, [], [], [], [], []⟩

def linkedInfo : WService := { targetNamespace := py"urn:x", location := some py"http://h", schemas := [], methods := [] }

theorem linked_reaches {i : SchemaId} (h : Reaches linkedWorld [0] i) : i = 1 ∨ i = 2 := by
  have step : ∀ j k, j = 0 ∨ j = 1 ∨ j = 2 → Refers linkedWorld j k → k = 1 ∨ k = 2 := by
    rintro j k (rfl | rfl | rfl) hr
    · rcases hr with hr | hr
      · exact .inl (List.mem_singleton.1 hr)
      · cases hr
    · rcases hr with hr | hr
      · cases hr
      · exact .inr (List.mem_singleton.1 hr)
    · rcases hr with hr | hr <;> cases hr
  induction h with
  | root hr h1 => exact step _ _ (.inl (List.mem_singleton.1 hr)) h1
  | next _ h1 ih => exact step _ _ (.inr ih) h1

/-- A dispatcher with two more schemas can be made; both are served. -/
theorem linked_made : ∃ d, newDispatcher linkedWorld noTypes (fun _ _ => .ok fun _ => .ok ()) { schemas := [0], methods := [] } linkedInfo
      [] [] true = .ok d ∧ ∃ served, Serving linkedWorld noTypes linkedInfo [0] d served ∧ 1 ∈ served ∧ 2 ∈ served := by
  obtain ⟨d, hd⟩ := C93_makeable linkedWorld noTypes (fun _ _ => .ok fun _ => .ok ()) { schemas := [0], methods := [] }
    linkedInfo [] [] true 0 rfl (by decide) [some py"types.xsd", some py"a+b.xsd"] (by
      intro j hj
      rcases linked_reaches hj with rfl | rfl
      · exact List.mem_cons_self ..
      · exact List.mem_cons_of_mem _ (List.mem_cons_self ..)) (by decide) (by
      intro j hj
      have hj' : j = 0 ∨ j = 1 ∨ j = 2 := hj.imp id linked_reaches
      have hb : ∀ j, Buildable (linkedWorld.shown noTypes j) := fun j => ⟨nofun, nofun,
        nofun⟩
      rcases hj' with rfl | rfl | rfl
      · refine ⟨hb _, ⟨by unfold XmlOk; decide, ?_, nofun, nofun, nofun,
          nofun⟩, ?_⟩
        · intro p hp
          cases List.mem_singleton.1 hp
          refine ⟨by unfold XmlOk; decide, fun l hl => ?_⟩
          cases hl
          unfold XmlOk; decide
        · rintro k (hk | hk)
          · cases List.mem_singleton.1 hk
            exact ⟨_, rfl, by decide⟩
          · cases hk
      · refine ⟨hb _, ⟨by unfold XmlOk; decide, nofun, ?_, nofun, nofun,
          nofun⟩, ?_⟩
        · intro p hp
          cases List.mem_singleton.1 hp
          exact ⟨_, rfl, by unfold XmlOk; decide⟩
        · rintro k (hk | hk)
          · cases hk
          · cases List.mem_singleton.1 hk
            exact ⟨_, rfl, by decide⟩
      · exact ⟨hb _, ⟨by unfold XmlOk; decide, nofun, nofun, nofun,
          nofun, nofun⟩, fun k hk => by rcases hk with hk | hk <;> cases hk⟩) (by
      refine ⟨⟨?_, nofun⟩, by unfold XmlOk; decide, by unfold XmlOk; decide,
        ⟨_, rfl, by unfold XmlOk; decide⟩, ?_, nofun⟩
      · intro g hg
        cases List.mem_singleton.1 hg
        exact ⟨nofun, nofun, nofun⟩
      · intro g hg
        cases List.mem_singleton.1 hg
        refine ⟨by unfold XmlOk; decide, ?_, nofun, nofun, nofun,
          nofun⟩
        intro p hp
        cases List.mem_singleton.1 hp
        refine ⟨by unfold XmlOk; decide, fun l hl => ?_⟩
        cases hl
        unfold XmlOk; decide) (fun _ => ⟨_, rfl⟩) rfl
  obtain ⟨⟨served, hs⟩, _⟩ := C93_documents _ _ _ _ _ _ _ _ _ (by decide) hd
  have hinj : ∀ i j, Reaches linkedWorld [0] i → Reaches linkedWorld [0] j →
      (linkedWorld.schema i).location = (linkedWorld.schema j).location → i = j := by
    intro i j hi hj
    rcases linked_reaches hi with rfl | rfl <;> rcases linked_reaches hj with rfl | rfl <;> decide
  have h1 : Reaches linkedWorld [0] 1 := .root (List.mem_singleton.2 rfl) (.inl (List.mem_singleton.2 rfl))
  have h2 : Reaches linkedWorld [0] 2 := .next h1 (.inr (List.mem_singleton.2 rfl))
  exact ⟨d, hd, served, hs, C93_all linkedWorld noTypes { schemas := [0], methods := [] } linkedInfo d served hs hinj 1 h1,
    C93_all linkedWorld noTypes { schemas := [0], methods := [] } linkedInfo d served hs hinj 2 h2⟩

def asking (query : Str) : Req :=
  ExS.request py"GET" [] [(py"QUERY_STRING", query)]

/-- With this dispatcher the link of `types.xsd` works and that of `a+b.xsd` does not. -/
example : ∃ d, ∃ W : World, W = { linkedWorld with disp := fun _ => d } ∧
    (∃ resp, outcome (dispatch W 0 0) { reqs := [asking py"xsd=types.xsd"] } = .ok resp ∧ resp.status = 200 ∧
      resp.content = .bytes (W.write (document (W.shown noTypes 1).linked))) ∧
    ∃ resp, outcome (dispatch W 0 0) { reqs := [asking py"xsd=a+b.xsd"] } = .ok resp ∧ resp.content = .str py"not_found" := by
  obtain ⟨d, hd, served, hs, h1, h2⟩ := linked_made
  have hh : d.hooks = [] := (C93_documents _ _ _ _ _ _ _ _ _ (by decide) hd).2.2.2.2.1
  have hs' : Serving { linkedWorld with disp := fun _ => d } noTypes linkedInfo [0] d served :=
    ⟨hs.wsdl, hs.xsds, fun i hi => by
      have := hs.reached i hi
      clear hi
      induction this with
      | root a b => exact .root a b
      | next _ b ih => exact .next ih b, hs.once, hs.complete, hs.located⟩
  refine ⟨d, _, rfl, ?_, ?_⟩
  · exact C93_follow { linkedWorld with disp := fun _ => d } noTypes { schemas := [0], methods := [] } linkedInfo 0 served hs'
      1 h1 py"types.xsd" rfl (by decide) (by decide) (by decide) 0 _ _ rfl rfl rfl (by rw [hh]; rfl) (by rw [hh]; rfl)
  · refine C93_plus { linkedWorld with disp := fun _ => d } noTypes { schemas := [0], methods := [] } linkedInfo 0 served hs'
      py"a" py"b.xsd" (by decide) (by decide) (by decide) ?_ 0 _ _ rfl rfl rfl (by rw [hh]; rfl) (by rw [hh]; rfl)
    intro i hi
    show (linkedSchemas i).location ≠ _
    rcases linked_reaches (hs.reached i hi) with rfl | rfl <;> decide

/-- The imported schema has no location. -/
example (d : Dispatcher) : newDispatcher linkedWorld noTypes (fun _ _ => .ok fun _ => .ok ()) { schemas := [3], methods := [] }
    linkedInfo [] [] true ≠ .ok d :=
  C93_missing _ _ _ _ _ _ _ _ (by decide) 3 4 (List.mem_singleton.2 rfl) (.inl (List.mem_singleton.2 rfl))
    (fun _ h => by cases h) d

/-- The link of `types.xsd` in the document of schema 0. -/
example : ∃ k, Within (document (linkedWorld.shown noTypes 0).linked) k ∧ IsLink k (some py"?xsd=types.xsd") :=
  ⟨_, Within.self.child (List.mem_cons_self ..), .inl ⟨_, _, _, rfl⟩, rfl⟩

end Ex

end Soapfish
