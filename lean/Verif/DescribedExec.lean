import Verif.DescribedLemmas
/-
Executing the code generated for the operations of a binding, and for a port.
-/
set_option maxRecDepth 8000
namespace Soapfish

/-! ### Header classes -/

theorem execHeader_ok {g g' : Globals} {h : PyHeader} (he : execHeader g h = .ok g') :
    ∃ s els, mapI (headerElement s) h.fields = .ok els ∧ g' = (h.name, .header ⟨h.name, els.filterMap id⟩) :: g := by
  unfold execHeader at he
  cases hb : g.get py"BaseHeader" with
  | some o => rw [hb] at he; cases he
  | none =>
    rw [hb] at he
    obtain ⟨_, he⟩ := seqI (x := .ok ()) he
    obtain ⟨s, _, he⟩ := bindI he
    obtain ⟨els, h2, he⟩ := bindI he
    split at he
    · injection he with he
      exact ⟨s, els, h2, he.symm⟩
    · cases he

theorem mapI_inv {α β : Type} {f : α → Except ImportErr β} {l : List α} : ∀ {r : List β}, mapI f l = .ok r →
    All2 (fun a b => f a = .ok b) l r := by
  induction l with
  | nil => intro r h; rw [← Except.ok.inj h]; exact .nil
  | cons a l ih =>
    intro r h
    obtain ⟨b, h1, h⟩ := bindI h
    obtain ⟨bs, h2, h⟩ := bindI h
    cases h
    exact .cons h1 (ih h2)

theorem all2_comp {α β γ : Type} {R : α → β → Prop} {S : β → γ → Prop} {Q : α → γ → Prop} {as : List α} {bs : List β}
    {cs : List γ} (h : All2 R as bs) (k : All2 S bs cs) (hq : ∀ a ∈ as, ∀ b c, R a b → S b c → Q a c) : All2 Q as cs := by
  induction h generalizing cs with
  | nil => cases k; exact .nil
  | cons h1 _ ih =>
    cases k with
    | cons k1 ks =>
      exact .cons (hq _ (List.mem_cons_self ..) _ _ h1 k1) (ih ks fun a ha => hq a (List.mem_cons_of_mem _ ha))

theorem headerParts_named {d operation : Val} {x : Str} {parts : List Val} (h : HeaderParts d operation x parts) :
    ∀ p ∈ parts, ∃ n, HasText p py"name" n := by
  obtain ⟨_, hs, _, _, h⟩ := h
  clear * - h
  induction h with
  | nil => simp
  | cons h _ ih =>
    intro p hp
    rcases List.mem_cons.1 hp with rfl | hp
    · obtain ⟨_, _, _, _, _, _, _, _, n, _, _, hn, _⟩ := h
      exact ⟨n, hn⟩
    · exact ih p hp

theorem headerFor_of {d operation : Val} {x : Str} {parts : List Val} {fields : List (Str × PyHeaderField)} {s : GSchema}
    {els : List (Option (Str × GTop))} {n : Str} (hp : HeaderParts d operation x parts) (hne : parts ≠ [])
    (hf : All2 (fun p f => headerField p = .ok f) parts fields) (he : mapI (headerElement s) fields = .ok els) :
    HeaderFor d operation x (some ⟨n, els.filterMap id⟩) := by
  refine ⟨parts, s, els, hp, hne, ?_, rfl⟩
  exact all2_comp hf (mapI_inv he) fun p hpm f r h1 h2 => headerField_for h1 h2 (headerParts_named hp p hpm)

/-! ### Methods -/

theorem headerNamed_ok {g : Globals} {n : Str} {h : HeaderObj} {r : Option HeaderObj} (hg : g.get n = some (.header h))
    (hr : headerNamed g (some n) = .ok r) : r = some h := by
  simp only [headerNamed, hg] at hr
  exact (Except.ok.inj hr).symm

/-- Names that no header class has. -/
def NoHeader (n : Str) : Prop := ¬ py"Headers" <:+ n

theorem execHeader_get {g g' : Globals} {h : PyHeader} {k : Str} (hk : h.name = k ++ py"Headers") (he : execHeader g h = .ok g') :
    ∀ n, NoHeader n → g'.get n = g.get n := by
  obtain ⟨s, els, _, rfl⟩ := execHeader_ok he
  intro n hn
  refine Globals.get_cons_ne _ _ ?_
  rintro rfl
  rw [hk] at hn
  exact hn (List.suffix_append _ _)

/-- Both header classes of an operation. -/
theorem execHeaders_ok {digest : Str → Str} {d im om operation imh omh : Val} {ih oh : Option PyHeader} {g g0 : Globals}
    {ihv ohv : Option HeaderObj}
    (hi : getMessageHeader d operation py"input" = .ok imh) (ho : getMessageHeader d operation py"output" = .ok omh)
    (hih : headerCode digest d im imh = .ok ih) (hoh : headerCode digest d om omh = .ok oh)
    (he : execHeaders g (ih.toList ++ oh.toList) = .ok g0) (h1 : headerNamed g0 (ih.map (·.name)) = .ok ihv)
    (h2 : headerNamed g0 (oh.map (·.name)) = .ok ohv) :
    (∀ n, NoHeader n → g0.get n = g.get n) ∧ HeaderFor d operation py"output" ohv ∧
    ((ohv = none ∨ ∃ n n', HasText im py"name" n ∧ HasText om py"name" n' ∧ n ≠ n') →
      HeaderFor d operation py"input" ihv) := by
  have hname : ∀ {m : Val} {n : Str}, HasText m py"name" n →
      (if m.isNone then [] else textOf (readStr m py"name")) = n := by
    intro m n h
    rw [readStr_of h]
    cases m with
    | atom a => cases h
    | _ => rfl
  rcases headerCode_ok hi hih with ⟨rfl, hin⟩ | ⟨ip, inm, isch, ifs, hip, hine, rfl, hinm, hif⟩
  · rcases headerCode_ok ho hoh with ⟨rfl, hon⟩ | ⟨op, onm, osch, ofs, hop, hone, rfl, honm, hof⟩
    · cases he
      cases h1
      cases h2
      exact ⟨fun _ _ => rfl, hon, fun _ => hin⟩
    · obtain ⟨g1, he1, he⟩ := bindI he
      cases he
      cases h1
      obtain ⟨s, els, hm, rfl⟩ := execHeader_ok he1
      cases headerNamed_ok (Globals.get_cons_self ..) h2
      exact ⟨execHeader_get rfl he1, headerFor_of hop hone hof hm, fun _ => hin⟩
  · rcases headerCode_ok ho hoh with ⟨rfl, hon⟩ | ⟨op, onm, osch, ofs, hop, hone, rfl, honm, hof⟩
    · obtain ⟨g1, he1, he⟩ := bindI he
      cases he
      cases h2
      obtain ⟨s, els, hm, rfl⟩ := execHeader_ok he1
      cases headerNamed_ok (Globals.get_cons_self ..) h1
      exact ⟨execHeader_get rfl he1, hon, fun _ => headerFor_of hip hine hif hm⟩
    · obtain ⟨g1, he1, he⟩ := bindI he
      obtain ⟨g2, he2, he⟩ := bindI he
      cases he
      have hk1 := execHeader_get rfl he1
      have hk2 := execHeader_get rfl he2
      obtain ⟨s1, els1, hm1, rfl⟩ := execHeader_ok he1
      obtain ⟨s2, els2, hm2, rfl⟩ := execHeader_ok he2
      cases headerNamed_ok (Globals.get_cons_self ..) h2
      refine ⟨fun n hn => (hk2 n hn).trans (hk1 n hn), headerFor_of hop hone hof hm2, ?_⟩
      rintro (h | ⟨n, n', hn, hn', hd⟩)
      · cases h
      · have : headerNamed _ _ = .ok ihv := h1
        rw [Option.map_some] at this
        cases headerNamed_ok ((Globals.get_cons_ne _ _ (by
          rw [hname hn, hname hn']
          intro h
          exact hd (append_inj h).symm)).trans (Globals.get_cons_self ..)) this
        exact headerFor_of hip hine hif hm1

theorem execParam_element {g : Globals} {n p : Str} {r : WPart × Str} (h : execParam g (some (.element n p)) = .ok r) :
    ∃ n' p', Means '\'' n n' ∧ Means '\'' p p' ∧ r = (.element n', p') := by
  obtain ⟨n', h1, h⟩ := bindI h
  obtain ⟨p', h2, h⟩ := bindI h
  injection h with h
  exact ⟨n', p', literal_means h1, literal_means h2, h.symm⟩

theorem execParam_cls {g : Globals} {c : Str} {r : WPart × Str} (h : execParam g (some (.cls c)) = .ok r) :
    ∃ c', r = (.cls c', py"body") := by
  simp only [execParam] at h
  split at h
  · injection h with h; exact ⟨_, h.symm⟩
  · injection h with h; exact ⟨_, h.symm⟩
  · cases h

/-- The function of the operation's name. -/
theorem functionNamed_ok {g : Globals} {n : Str} {f : Option Str} (h : functionNamed g n = .ok f) : f = some n := by
  unfold functionNamed at h
  split at h
  · exact (Except.ok.inj h).symm
  · cases h

theorem means_plain {q : Char} {s v : Str} (h : Means q s v) (hp : PlainText q s) : v = s := by
  induction h with
  | nil => rfl
  | char _ _ _ _ _ _ ih => rw [ih fun c hc => hp c (List.mem_cons_of_mem _ hc)]
  | escape => exact absurd rfl (hp '\\' (List.mem_cons_self ..)).2.1
  | other => exact absurd rfl (hp '\\' (List.mem_cons_self ..)).2.1

theorem execMethod_ok {digest : Str → Str} {server : Bool} {d binding operation : Val} {M : PyMethod} {g g' : Globals}
    (hc : methodCode digest server d binding operation = .ok M) (he : execMethod g M = .ok g') (hn : isIdent M.name = true)
    (hin : ∀ message, getMessageObject d binding operation py"input" = .ok message →
      ∃ part n, PartElement message part n ∧ isIdent n = true) :
    ∃ (k : MethodObj) (g0 : Globals), g' = (M.name ++ py"_method", .method k) :: g0 ∧ MethodFor d binding server operation k ∧
      k.operationName = M.name ∧ HasText operation py"name" M.name ∧ ∀ n, NoHeader n → g0.get n = g.get n := by
  obtain ⟨im, him, hc⟩ := bindI hc
  obtain ⟨om, hom, hc⟩ := bindI hc
  obtain ⟨imh, himh, hc⟩ := bindI hc
  obtain ⟨omh, homh, hc⟩ := bindI hc
  obtain ⟨ih, hih, hc⟩ := bindI hc
  obtain ⟨oh, hoh, hc⟩ := bindI hc
  obtain ⟨input, hinp, hc⟩ := bindI hc
  obtain ⟨output, hout, hc⟩ := bindI hc
  injection hc with hc
  subst hc
  obtain ⟨g0, hh, he⟩ := bindI he
  obtain ⟨_, he⟩ := seqI he
  obtain ⟨f, hf, he⟩ := bindI he
  obtain ⟨sa, hsa, he⟩ := bindI he
  obtain ⟨iv, hiv, he⟩ := bindI he
  obtain ⟨ihv, hihv, he⟩ := bindI he
  obtain ⟨ov, hov, he⟩ := bindI he
  obtain ⟨ohv, hohv, he⟩ := bindI he
  obtain ⟨nm, hnm, he⟩ := bindI he
  obtain ⟨st, hst, he⟩ := bindI he
  injection he with he
  obtain ⟨hkeep, hho, hhi⟩ := execHeaders_ok himh homh hih hoh hh hihv hohv
  obtain ⟨t, ht, hti⟩ := isIdent_not_none hn
  have htn : textOf (readStr operation py"name") = t := by rw [ht]; rfl
  have hname : HasText operation py"name" t := readStr_some ht
  dsimp only at hnm he hf ⊢
  rw [htn] at hnm he hf ⊢
  have hnm' : nm = t := literal_plain_eq hnm (isIdent_plain hti _ (.inl rfl))
  subst hnm'
  refine ⟨_, g0, he.symm, ?_, rfl, hname, hkeep⟩
  obtain ⟨part, n, hpe, hni⟩ := hin im him
  have himm : MessageOf d binding operation py"input" im := by
    rcases message_ok him with ⟨rfl, _⟩ | ⟨_, h⟩
    · obtain ⟨r, ⟨_, h⟩, _⟩ := hpe; cases h
    · exact h
  constructor
  · exact ⟨hname, isIdent_function hti⟩
  · refine ⟨?_, ?_⟩
    · intro o a ho ha
      have : soapActionText operation = a := by
        unfold soapActionText
        rw [attr_child ho ha]
        show textOf (readStr o py"soapAction") = a
        rw [readStr_of ha]; rfl
      rw [this] at hsa
      exact literal_means hsa
    · intro h
      obtain ⟨w, hw, hwn⟩ := path_two h
      have : soapActionText operation = py"None" := by
        unfold soapActionText
        rw [hw]
        show textOf (readStr w py"soapAction") = _
        rw [readStr_absent hwn]; rfl
      rw [this] at hsa
      exact literal_plain_eq hsa (by unfold PlainText; decide)
  · refine ⟨?_, ?_⟩
    · intro o a ho ha hne
      have : styleText operation = some a := by
        unfold styleText
        rw [attr_child ho ha]
        show nonEmpty (readStr o py"style") = _
        rw [readStr_of ha]
        cases a with
        | nil => exact absurd rfl hne
        | cons => rfl
      rw [this] at hst
      exact literal_means hst
    · intro h
      have : styleText operation = none := by
        unfold styleText
        split
        · rename_i o ho
          cases hs : nonEmpty (readStr o py"style") with
          | none => rfl
          | some a =>
            obtain ⟨h1, h2⟩ := nonEmpty_some hs
            exact absurd (h o a (readChild_attr ho) (readStr_some h1)) h2
        · rfl
      rw [this] at hst
      exact (Except.ok.inj hst).symm
  · refine ⟨im, part, n, himm, hpe, ?_⟩
    rcases paramCode_ok hinp with ⟨_, h⟩ | ⟨part', n', hpe', rfl⟩ | ⟨part', c, h1, h2, rfl⟩
    · obtain ⟨r, hi, _⟩ := hpe
      exact absurd hi (h _ _)
    · obtain ⟨r, h1, h2, h3, h4⟩ := hpe
      obtain ⟨r', k1, k2, k3, k4⟩ := hpe'
      have := h1.unique k1
      injection this with this _
      subst this
      cases h2.unique k2
      cases AfterColon.unique h4 k4
      obtain ⟨n', p', m1, m2, rfl⟩ := execParam_element hiv
      cases means_plain m1 (isIdent_plain hni _ (.inl rfl))
      refine ⟨rfl, isIdent_function hni, ?_⟩
      intro q hq
      rw [readStr_of hq] at m2
      exact m2
    · obtain ⟨r, k1, k2, k3, k4⟩ := hpe
      have := h1.unique k1
      injection this with this _
      subst this
      exact absurd (h2 r k2) k3
  · refine ⟨if om.isNone then none else some om, ?_, ?_, ?_⟩
    · intro m hm
      rcases message_ok hom with ⟨rfl, _⟩ | ⟨h1, h⟩
      · cases hm
      · rw [h1] at hm
        injection hm with hm
        exact hm ▸ h
    · intro hm
      rcases message_ok hom with ⟨rfl, h⟩ | ⟨h1, h⟩
      · exact h
      · rw [h1] at hm
        cases hm
    · have hsome : ∀ l, HasItems om py"parts" l → (if om.isNone then none else some om) = some om := by
        rintro l ⟨_, h⟩
        cases om with
        | atom a => cases h
        | _ => rfl
      rcases paramCode_ok hout with ⟨rfl, h⟩ | ⟨part', n', hpe', rfl⟩ | ⟨part', c, h1, h2, rfl⟩
      · cases hov
        refine .none ?_
        intro m p ps hm
        split at hm
        · cases hm
        · injection hm with hm
          subst hm
          exact h p ps
      · obtain ⟨n'', p', m1, m2, rfl⟩ := execParam_element hov
        obtain ⟨r, hr, _⟩ := id hpe'
        refine .element (hsome _ hr) hpe' m1 ?_
        intro q hq
        rw [readStr_of hq] at m2
        exact m2
      · obtain ⟨c', rfl⟩ := execParam_cls hov
        exact .cls (hsome _ h1) h1 h2
  · intro h
    refine hhi ?_
    rcases h with h | ⟨m, m', n1, n2, h1, h2, h3, h4, h5⟩
    · exact .inl h
    · refine .inr ⟨n1, n2, ?_, ?_, h5⟩
      · rw [himm.unique h1]; exact h3
      · rcases message_ok hom with ⟨_, h⟩ | ⟨_, h⟩
        · exact absurd h2 (h m')
        · rw [h.unique h2]; exact h4
  · exact hho
  · cases server with
    | true =>
      have hf : functionNamed g0 nm = .ok f := hf
      rw [functionNamed_ok hf]; rfl
    | false => cases hf; rfl

/-! ### All methods of a port -/

theorem noHeader_method (n : Str) : NoHeader (n ++ py"_method") := by
  rintro ⟨t, h⟩
  have := congrArg List.getLast? h
  simp at this

/-- Looking up a method gives the one for the last operation of that name. -/
theorem execMethods_ok {digest : Str → Str} {server : Bool} {d binding : Val} {ops : List Val} {Ms : List PyMethod}
    (hc : All2 (fun op M => methodCode digest server d binding op = .ok M) ops Ms) (hn : ∀ M ∈ Ms, isIdent M.name = true)
    (hin : ∀ op ∈ ops, ∀ message, getMessageObject d binding op py"input" = .ok message →
      ∃ part n, PartElement message part n ∧ isIdent n = true) :
    ∀ {g g' : Globals}, execMethods g Ms = .ok g' →
      (∀ n, NoHeader n → (∀ M ∈ Ms, n ≠ M.name ++ py"_method") → g'.get n = g.get n) ∧
      All2 (fun op M => HasText op py"name" M.name ∧ ∃ k before last after, ops = before ++ last :: after ∧
        g'.get (M.name ++ py"_method") = some (.method k) ∧ k.operationName = M.name ∧
        (∀ b ∈ after, ¬ HasText b py"name" M.name) ∧ MethodFor d binding server last k) ops Ms := by
  induction hc with
  | nil => intro g g' h; cases h; exact ⟨fun _ _ _ => rfl, .nil⟩
  | @cons op M ops Ms h1 hrest ih =>
    intro g g' h
    obtain ⟨g1, he, h⟩ := bindI h
    obtain ⟨k, g0, rfl, hk, hkn, hopn, hkeep⟩ := execMethod_ok h1 he (hn M (List.mem_cons_self ..))
      (hin op (List.mem_cons_self ..))
    obtain ⟨ih1, ih2⟩ := ih (fun M' hM => hn M' (List.mem_cons_of_mem _ hM))
      (fun o ho => hin o (List.mem_cons_of_mem _ ho)) h
    refine ⟨?_, .cons ⟨hopn, ?_⟩ ?_⟩
    · intro n hno hne
      rw [ih1 n hno fun M' hM => hne M' (List.mem_cons_of_mem _ hM),
        Globals.get_cons_ne _ _ (hne M (List.mem_cons_self ..)).symm]
      exact hkeep n hno
    · by_cases hlater : ∃ M' ∈ Ms, M'.name = M.name
      · obtain ⟨M', hM', hname⟩ := hlater
        obtain ⟨o', _, _, k', b, l, a, rfl, h3, h4, h5, h6⟩ := ih2.mem_right hM'
        rw [hname] at h3 h4 h5
        exact ⟨k', op :: b, l, a, rfl, h3, h4, h5, h6⟩
      · refine ⟨k, [], op, ops, rfl, ?_, hkn, ?_, hk⟩
        · rw [ih1 _ (noHeader_method _) fun M' hM' h => hlater ⟨M', hM', (append_inj h).symm⟩]
          exact Globals.get_cons_self ..
        · intro b hb hbn
          obtain ⟨M', hM', hb', _⟩ := ih2.mem_left hb
          exact hlater ⟨M', hM', hb'.unique hbn⟩
    · refine ih2.imp ?_
      rintro o M' ⟨h2, k', b, l, a, rfl, h3⟩
      exact ⟨h2, k', op :: b, l, a, rfl, h3⟩

/-! ### Ports -/

theorem transport_iff (binding : Val) (s : Str) : (readChild binding py"binding").bind (readStr · py"transport") = some s ↔
    binding.path [py"binding", py"transport"] = some (.atom (.str s)) := by
  constructor
  · intro h
    obtain ⟨w, hw, h⟩ := Option.bind_eq_some_iff.1 h
    show (binding.attr py"binding").bind _ = _
    rw [readChild_attr hw]
    show (w.attr py"transport").bind _ = _
    have : w.attr py"transport" = _ := readStr_some h
    rw [this]
    rfl
  · intro h
    obtain ⟨w, hw, h⟩ := path_two h
    rw [hw]
    exact readStr_of h

theorem addressOf_path {port : Val} {u : Str} (h : port.path [py"address", py"location"] = some (.atom (.str u))) :
    addressOf port = some u := by
  obtain ⟨w, hw, h⟩ := path_two h
  unfold addressOf
  rw [hw]
  exact readStr_of h

theorem all_calls {cs : List (Str × Str)} {calls : List (Str × Str × Str)} (hn : ∀ c ∈ cs, isIdent c.1 = true)
    (h : mapI (fun c : Str × Str => do
      let operation ← literal (textValue '\'' c.1)
      .ok (c.1, c.2, operation)) cs = .ok calls) : calls = cs.map fun c => (c.1, c.2, c.1) := by
  have := mapI_inv h
  clear h
  induction this with
  | nil => rfl
  | @cons c r cs rs h1 _ ih =>
    obtain ⟨o, ho, h1⟩ := bindI h1
    injection h1 with h1
    subst h1
    rw [literal_plain_eq ho (isIdent_plain (hn c (List.mem_cons_self ..)) _ (.inl rfl)),
      ih fun c hc => hn c (List.mem_cons_of_mem _ hc)]
    rfl

theorem find_last {cs : List (Str × Str)} {n : Str} (hn : n ∈ cs.map (·.1)) :
    ∃ c, (cs.map fun c => (c.1, c.2, c.1)).reverse.find? (fun c => c.1 = n) = some c ∧ c.2.2 = n := by
  cases hf : (cs.map fun c => (c.1, c.2, c.1)).reverse.find? (fun c => c.1 = n) with
  | none =>
    obtain ⟨m, hm, rfl⟩ := List.mem_map.1 hn
    have := List.find?_eq_none.1 hf (m.1, m.2, m.1) (List.mem_reverse.2 (List.mem_map.2 ⟨m, hm, rfl⟩))
    simp at this
  | some c =>
    refine ⟨c, rfl, ?_⟩
    have h1 := List.find?_some hf
    obtain ⟨m, _, rfl⟩ := List.mem_map.1 (List.mem_reverse.1 (List.mem_of_find?_eq_some hf))
    exact of_decide_eq_true h1

/-- The function for an operation tells the name of the parameter. -/
theorem call_input {d binding op message : Val} {c : Str × Str} (hc : callCode d binding op = .ok c) (hi : isIdent c.2 = true)
    (hm : getMessageObject d binding op py"input" = .ok message) : ∃ part n, PartElement message part n ∧ isIdent n = true := by
  obtain ⟨m, h1, hc⟩ := bindI hc
  rw [hm] at h1
  injection h1 with h1
  subst h1
  obtain ⟨r, hr, hc⟩ := bindI hc
  injection hc with hc
  subst hc
  obtain ⟨n, rfl, hn⟩ := isIdent_not_none hi
  obtain ⟨part, hp⟩ := partElement_ok hr
  exact ⟨part, n, hp, hn⟩

theorem function_input {d binding op message : Val} {f : PyFunction} (hc : functionCode d binding op = .ok f)
    (hi : isIdent f.parameter = true) (hm : getMessageObject d binding op py"input" = .ok message) :
    ∃ part n, PartElement message part n ∧ isIdent n = true := by
  obtain ⟨m, h1, hc⟩ := bindI hc
  rw [hm] at h1
  injection h1 with h1
  subst h1
  obtain ⟨m', _, hc⟩ := bindI hc
  obtain ⟨r, hr, hc⟩ := bindI hc
  obtain ⟨r', hr', hc⟩ := bindI hc
  injection hc with hc
  subst hc
  obtain ⟨n, rfl, hn⟩ := isIdent_not_none hi
  obtain ⟨part, hp⟩ := partElement_ok hr
  exact ⟨part, n, hp, hn⟩

theorem method_name {digest : Str → Str} {server : Bool} {d binding op : Val} {M : PyMethod}
    (h : methodCode digest server d binding op = .ok M) : M.name = textOf (readStr op py"name") := by
  obtain ⟨_, _, h⟩ := bindI h
  obtain ⟨_, _, h⟩ := bindI h
  obtain ⟨_, _, h⟩ := bindI h
  obtain ⟨_, _, h⟩ := bindI h
  obtain ⟨_, _, h⟩ := bindI h
  obtain ⟨_, _, h⟩ := bindI h
  obtain ⟨_, _, h⟩ := bindI h
  obtain ⟨_, _, h⟩ := bindI h
  injection h with h
  rw [← h]

theorem call_name {d binding op : Val} {c : Str × Str} (h : callCode d binding op = .ok c) :
    c.1 = textOf (readStr op py"name") := by
  obtain ⟨_, _, h⟩ := bindI h
  obtain ⟨_, _, h⟩ := bindI h
  injection h with h
  rw [← h]

theorem function_name {d binding op : Val} {f : PyFunction} (h : functionCode d binding op = .ok f) :
    f.name = textOf (readStr op py"name") := by
  obtain ⟨_, _, h⟩ := bindI h
  obtain ⟨_, _, h⟩ := bindI h
  obtain ⟨_, _, h⟩ := bindI h
  obtain ⟨_, _, h⟩ := bindI h
  injection h with h
  rw [← h]

theorem plain_suffix {n suffix : Str} (h : isIdent (n ++ suffix) = true) : PlainText '\'' n :=
  plain_left (isIdent_plain h _ (.inl rfl))

/-- The service object of a port. -/
theorem execService_ok {g : Globals} {p : PyPort} {s : ServiceObj} (h : execService g p = .ok s) :
    literal (textValue '\'' p.name) = .ok s.name ∧ literal (textValue '\'' p.targetNamespace) = .ok s.targetNamespace ∧
    literal (textValue '\'' p.location) = .ok s.location ∧ s.version = p.version ∧
    All2 (fun n g' => schemaNamed g n = .ok g') p.schemas s.schemas ∧
    All2 (fun (m : PyMethod) k => methodNamed g (m.name ++ py"_method") = .ok k) p.methods s.methods := by
  obtain ⟨_, h⟩ := seqI h
  obtain ⟨n, h1, h⟩ := bindI h
  obtain ⟨t, h2, h⟩ := bindI h
  obtain ⟨l, h3, h⟩ := bindI h
  obtain ⟨ss, h4, h⟩ := bindI h
  obtain ⟨ms, h5, h⟩ := bindI h
  injection h with h
  subst h
  exact ⟨h1, h2, h3, rfl, mapI_inv h4, mapI_inv h5⟩

theorem checkMember_ok {n : Str} (h : checkMember n = .ok ()) : isIdent n = true := by
  unfold checkMember at h
  split at h
  · cases h
  · exact checkIdent_ok h

/-- The methods of the service, from executed code. -/
theorem methods_for {digest : Str → Str} {server : Bool} {d binding : Val} {ops : List Val} {Ms : List PyMethod}
    (hc : All2 (fun op M => methodCode digest server d binding op = .ok M) ops Ms) (hn : ∀ M ∈ Ms, isIdent M.name = true)
    (hin : ∀ op ∈ ops, ∀ message, getMessageObject d binding op py"input" = .ok message →
      ∃ part n, PartElement message part n ∧ isIdent n = true) {g g' : Globals} (he : execMethods g Ms = .ok g')
    {ks : List MethodObj} (hk : All2 (fun (m : PyMethod) k => methodNamed g' (m.name ++ py"_method") = .ok k) Ms ks) :
    All2 (fun op k => ∃ before last after, ops = before ++ last :: after ∧
      HasText op py"name" k.operationName ∧ (∀ b ∈ after, ¬ HasText b py"name" k.operationName) ∧
      MethodFor d binding server last k) ops ks := by
  obtain ⟨_, h⟩ := execMethods_ok hc hn hin he
  refine all2_comp h hk ?_
  rintro op _ M k ⟨h1, k', b, l, a, h2, h3, h4, h5, h6⟩ h7
  unfold methodNamed at h7
  rw [h3] at h7
  injection h7 with h7
  subst h7
  rw [h4]
  exact ⟨b, l, a, h2, h1, h5, h6⟩

end Soapfish
