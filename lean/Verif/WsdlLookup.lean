import Verif.SpecSurvives
import Verif.Sim
import Verif.HandleLemmas
/-
Lookups give the same on descriptions that are the same.
-/
namespace Soapfish

theorem same_refl (v : Val) : v.Same v := rfl

/-- Attributes of the same instances. -/
theorem eraseFields_get? (p : Bool) (fs : List (Str × Val)) (n : Str) :
    Dict.get? (eraseFields p fs) n = (Dict.get? fs n).map (Val.eraseWith p) := by
  induction fs with
  | nil => rfl
  | cons q fs ih =>
    obtain ⟨k, v⟩ := q
    simp only [eraseFields, erasePair, Dict.get?, ih]
    split <;> rfl

theorem same_attr {v w : Val} (h : v.Same w) {n : Str} {u : Val} (hw : w.attr n = some u) :
    ∃ u', v.attr n = some u' ∧ u'.Same u := by
  cases w with
  | inst c fs x =>
    obtain ⟨gs, y, rfl, hg⟩ := erase_inst (p := true) (Eq.symm h)
    have h1 := eraseFields_get? true gs n
    rw [← hg, eraseFields_get?, show Dict.get? fs n = some u from hw] at h1
    cases h2 : Dict.get? gs n with
    | none => rw [h2] at h1; cases h1
    | some u' =>
      rw [h2] at h1
      injection h1 with h1
      exact ⟨u', h2, h1.symm⟩
  | _ => cases hw

theorem getA_iff {v : Val} {n : Str} {u : Val} : v.getA n = .ok u ↔ v.attr n = some u := by
  cases v with
  | inst c fs x =>
    simp only [Val.getA, Val.attr, getAttr]
    cases Dict.get? fs n with
    | none => simp
    | some w => simp
  | _ => simp [Val.getA, Val.attr]

theorem same_str {v : Val} {a : Atom} (h : v.Same (.atom a)) : v = .atom a :=
  (erase_atom (p := true) (Eq.symm h))

theorem same_list {v : Val} {t : Bool} {js : List Val} (h : v.Same (.list t js)) :
    ∃ t' is, v = .list t' is ∧ All2 Val.Same is js := by
  obtain ⟨t', is, rfl, _, hl⟩ := erase_list (p := true) (Eq.symm h)
  refine ⟨t', is, rfl, ?_⟩
  clear h
  induction js generalizing is with
  | nil => cases is with | nil => exact .nil | cons => cases hl
  | cons j js ih =>
    cases is with
    | nil => cases hl
    | cons i is =>
      simp only [eraseList, List.cons.injEq] at hl
      exact .cons hl.1.symm (ih is hl.2)

/-- The name is a text. -/
def NamedAs (v : Val) (n : Str) : Prop := v.attr py"name" = some (.atom (.str n))

/-- The item with a name, in a list that is the same as a list of named items without duplicates. -/
theorem findNamed_eq {α : Type} (val : α → Val) (name : α → Str) (l : List α) (hn : (l.map name).Nodup)
    (hv : ∀ a ∈ l, NamedAs (val a) (name a)) :
    ∀ is, All2 Val.Same is (l.map val) → ∀ a ∈ l, ∃ u, findNamed is (name a) = .ok u ∧ u.Same (val a) := by
  induction l with
  | nil => intro _ _ a ha; cases ha
  | cons b l ih =>
    intro is hs a ha
    cases hs with
    | @cons i _ is _ hij hs =>
    rw [List.map_cons, List.nodup_cons] at hn
    obtain ⟨u', hu', hsu⟩ := same_attr hij (hv b (List.mem_cons_self ..))
    have := same_str hsu; subst this
    unfold findNamed
    rw [getA_iff.2 hu']
    show ∃ u, (if name b = name a then Except.ok i else findNamed is (name a)) = .ok u ∧ _
    rcases List.mem_cons.1 ha with rfl | ha
    · rw [if_pos rfl]; exact ⟨i, rfl, hij⟩
    · rw [if_neg fun he : name b = name a => hn.1 (he ▸ List.mem_map.2 ⟨a, ha, rfl⟩)]
      exact ih hn.2 (fun c hc => hv c (List.mem_cons_of_mem _ hc)) is hs a ha

theorem lastPart_plain {n : Str} (h : ':' ∉ n) : lastPart ':' n = n := AfterColon.unique (lastPart_after n) ⟨h, .inl rfl⟩

theorem lastPart_prefix (p : Str) {n : Str} (h : ':' ∉ n) : lastPart ':' (p ++ ':' :: n) = n :=
  AfterColon.unique (lastPart_after _) ⟨h, .inr ⟨p, rfl⟩⟩

theorem getByName_list {α : Type} (val : α → Val) (name : α → Str) (l : List α) (hn : (l.map name).Nodup)
    (hv : ∀ a ∈ l, NamedAs (val a) (name a)) {items : Val} {t : Bool} (hi : items.Same (.list t (l.map val))) (a : α)
    (ha : a ∈ l) (full : Str) (hf : lastPart ':' full = name a) :
    ∃ u, getByName items (.atom (.str full)) = .ok u ∧ u.Same (val a) := by
  obtain ⟨t', is, rfl, hs⟩ := same_list hi
  show ∃ u, findNamed is (lastPart ':' full) = .ok u ∧ _
  rw [hf]
  exact findNamed_eq val name l hn hv is hs a ha

/-! ### Names of messages -/

theorem input_ne_output (a b : Str) : a ++ py"Input" ≠ b ++ py"Output" := by
  intro h
  have := congrArg List.reverse h
  simp at this

theorem input_inj {a b : Str} (h : a ++ py"Input" = b ++ py"Input") : a = b := List.append_cancel_right h
theorem output_inj {a b : Str} (h : a ++ py"Output" = b ++ py"Output") : a = b := List.append_cancel_right h

/-- The names and contents of the messages. -/
def messagePairs (ms : List WMethod) : List (Str × WPart) :=
  ms.flatMap fun m => [(m.operationName ++ py"Input", m.input), (m.operationName ++ py"Output", m.output)]

theorem messagePairs_names {ms : List WMethod} {n : Str} (h : n ∈ (messagePairs ms).map (·.1)) :
    ∃ m ∈ ms, n = m.operationName ++ py"Input" ∨ n = m.operationName ++ py"Output" := by
  obtain ⟨p, hp, rfl⟩ := List.mem_map.1 h
  obtain ⟨m, hm, hp⟩ := List.mem_flatMap.1 hp
  rcases List.mem_cons.1 hp with rfl | hp
  · exact ⟨m, hm, .inl rfl⟩
  · rw [List.mem_singleton] at hp; subst hp; exact ⟨m, hm, .inr rfl⟩

theorem messagePairs_nodup (ms : List WMethod) (h : (ms.map (·.operationName)).Nodup) :
    ((messagePairs ms).map (·.1)).Nodup := by
  induction ms with
  | nil => exact List.nodup_nil
  | cons m ms ih =>
    rw [List.map_cons, List.nodup_cons] at h
    show ((m.operationName ++ py"Input") :: (m.operationName ++ py"Output") :: (messagePairs ms).map (·.1)).Nodup
    refine List.nodup_cons.2 ⟨?_, List.nodup_cons.2 ⟨?_, ih h.2⟩⟩
    · intro hm
      rcases List.mem_cons.1 hm with he | hm
      · exact input_ne_output _ _ he
      · obtain ⟨k, hk, he | he⟩ := messagePairs_names hm
        · exact h.1 (input_inj he ▸ List.mem_map.2 ⟨k, hk, rfl⟩)
        · exact input_ne_output _ _ he
    · intro hm
      obtain ⟨k, hk, he | he⟩ := messagePairs_names hm
      · exact input_ne_output _ _ he.symm
      · exact h.1 (output_inj he ▸ List.mem_map.2 ⟨k, hk, rfl⟩)

/-! ### Attributes of the objects of a description -/

section
variable (v : Version)

theorem messageV_name (n : Str) (p : Val) : NamedAs (messageV v n p) n := by unfold messageV; cases v <;> rfl
theorem messageV_parts (n : Str) (p : Val) : (messageV v n p).attr py"parts" = some (.list false [p]) := by
  unfold messageV; cases v <;> rfl
theorem operationV_name (n : Str) (i o s : Val) : NamedAs (operationV v n i o s) n := by unfold operationV; cases v <;> rfl
theorem operationV_input (n : Str) (i o s : Val) : (operationV v n i o s).attr py"input" = some i := by
  unfold operationV; cases v <;> rfl
theorem operationV_output (n : Str) (i o s : Val) : (operationV v n i o s).attr py"output" = some o := by
  unfold operationV; cases v <;> rfl
theorem operationV_soap (n : Str) (i o s : Val) : (operationV v n i o s).attr py"operation" = some s := by
  unfold operationV; cases v <;> rfl
theorem portTypeV_name (n : Str) (os : List Val) : NamedAs (portTypeV v n os) n := by unfold portTypeV; cases v <;> rfl
theorem portTypeV_operations (n : Str) (os : List Val) : (portTypeV v n os).attr py"operations" = some (.list true os) := by
  unfold portTypeV; cases v <;> rfl
theorem bindingV_name (n t : Str) (os : List Val) : NamedAs (bindingV v n t os) n := by unfold bindingV; cases v <;> rfl
theorem bindingV_type (n t : Str) (os : List Val) : (bindingV v n t os).attr py"type" = some (.atom (.str t)) := by
  unfold bindingV; cases v <;> rfl
theorem bindingV_binding (n t : Str) (os : List Val) : (bindingV v n t os).attr py"binding" = some soapBindingV := by
  unfold bindingV; cases v <;> rfl
theorem bindingV_operations (n t : Str) (os : List Val) :
    (bindingV v n t os).attr py"operations" = some (.list true os) := by unfold bindingV; cases v <;> rfl
theorem serviceV_name (n : Str) (ps : List Val) : NamedAs (serviceV v n ps) n := by unfold serviceV; cases v <;> rfl
theorem serviceV_ports (n : Str) (ps : List Val) : (serviceV v n ps).attr py"ports" = some (.list true ps) := by
  unfold serviceV; cases v <;> rfl
theorem soapOperationV_action (a s : Option Str) : (soapOperationV v a s).attr py"soapAction" = some (optStr a) := by
  unfold soapOperationV; cases v <;> rfl
theorem soapOperationV_style (a s : Option Str) : (soapOperationV v a s).attr py"style" = some (optStr s) := by
  unfold soapOperationV; cases v <;> rfl
theorem definitionsV_target (t : Str) (ty : Val) (ms ps bs ss : List Val) :
    (definitionsV v t ty ms ps bs ss).attr py"targetNamespace" = some (.atom (.str t)) := by
  unfold definitionsV; cases v <;> rfl
theorem definitionsV_types (t : Str) (ty : Val) (ms ps bs ss : List Val) :
    (definitionsV v t ty ms ps bs ss).attr py"types" = some ty := by unfold definitionsV; cases v <;> rfl
theorem definitionsV_messages (t : Str) (ty : Val) (ms ps bs ss : List Val) :
    (definitionsV v t ty ms ps bs ss).attr py"messages" = some (.list true ms) := by unfold definitionsV; cases v <;> rfl
theorem definitionsV_portTypes (t : Str) (ty : Val) (ms ps bs ss : List Val) :
    (definitionsV v t ty ms ps bs ss).attr py"portTypes" = some (.list true ps) := by unfold definitionsV; cases v <;> rfl
theorem definitionsV_bindings (t : Str) (ty : Val) (ms ps bs ss : List Val) :
    (definitionsV v t ty ms ps bs ss).attr py"bindings" = some (.list true bs) := by unfold definitionsV; cases v <;> rfl
theorem definitionsV_services (t : Str) (ty : Val) (ms ps bs ss : List Val) :
    (definitionsV v t ty ms ps bs ss).attr py"services" = some (.list true ss) := by unfold definitionsV; cases v <;> rfl

end

theorem attr_str {u w : Val} (h : u.Same w) {n : Str} {a : Atom} (hw : w.attr n = some (.atom a)) :
    u.attr n = some (.atom a) := by
  obtain ⟨u', h1, h2⟩ := same_attr h hw
  rw [h1, same_str h2]

theorem attr_items {u w : Val} (h : u.Same w) {n : Str} {t : Bool} {js : List Val} (hw : w.attr n = some (.list t js)) :
    ∃ is, HasItems u n is ∧ All2 Val.Same is js := by
  obtain ⟨u', h1, h2⟩ := same_attr h hw
  obtain ⟨t', is, rfl, h3⟩ := same_list h2
  exact ⟨is, ⟨t', h1⟩, h3⟩

/-- A message that is the same as a generated one carries its content. -/
theorem carries_of_same (v : Version) {u : Val} {n : Str} {p : WPart} (h : u.Same (messageV v n (partOf p)))
    (hp : PartBuilds p) : u.attr py"name" = some (.atom (.str n)) ∧ Carries u p := by
  refine ⟨attr_str h (messageV_name v n _), ?_⟩
  obtain ⟨is, hi, hs⟩ := attr_items h (messageV_parts v n _)
  cases hs with
  | @cons i _ _ _ h1 hs =>
  cases hs
  refine ⟨i, hi, attr_str h1 (by cases p <;> rfl), ?_⟩
  cases p with
  | element a => exact ⟨attr_str h1 rfl, attr_str h1 rfl⟩
  | cls a => exact ⟨attr_str h1 rfl, attr_str h1 rfl⟩
  | none => exact hp

end Soapfish
