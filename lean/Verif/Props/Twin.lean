import Verif.Spec.Twin
import Verif.DescribedExec
import Verif.Props.Calls
import Verif.Props.Described
/-
Client code and server code generated from the same WSDL document (C94).
-/
namespace Soapfish

/-! ### The code -/

theorem all2_both {α β γ ε : Type} {f : α → Except ε β} {g : α → Except ε γ} {R : β → γ → Prop}
    (h : ∀ x b c, f x = .ok b → g x = .ok c → R b c) : ∀ {l : List α} {bs : List β} {cs : List γ},
    All2 (fun a b => f a = .ok b) l bs → All2 (fun a c => g a = .ok c) l cs → All2 R bs cs := by
  intro l bs cs h1
  induction h1 generalizing cs with
  | nil => intro h2; cases h2; exact .nil
  | cons hb _ ih => intro h2; cases h2 with | cons hc h2 => exact .cons (h _ _ _ hb hc) (ih h2)

/-- Code of a method for a client and for a server. -/
def MethodTwin (a b : PyMethod) : Prop := a.function = false ∧ b = { a with function := true }

theorem methodCode_twin {digest : Str → Str} {d binding op : Val} {a b : PyMethod}
    (ha : methodCode digest false d binding op = .ok a) (hb : methodCode digest true d binding op = .ok b) :
    MethodTwin a b := by
  unfold methodCode at ha hb
  obtain ⟨_, h1, ha⟩ := bindI ha
  obtain ⟨_, h2, ha⟩ := bindI ha
  obtain ⟨_, h3, ha⟩ := bindI ha
  obtain ⟨_, h4, ha⟩ := bindI ha
  obtain ⟨_, h5, ha⟩ := bindI ha
  obtain ⟨_, h6, ha⟩ := bindI ha
  obtain ⟨_, h7, ha⟩ := bindI ha
  obtain ⟨_, h8, ha⟩ := bindI ha
  simp only [h1, h2, h3, h4, h5, h6, h7, h8, Except_ok_bind] at hb
  cases ha
  cases hb
  exact ⟨rfl, rfl⟩

/-- Code of a port for a client and for a server. -/
structure PortTwin (a b : PyPort) : Prop where
  functions : a.functions = []
  methods : All2 MethodTwin a.methods b.methods
  name : a.name = b.name
  targetNamespace : a.targetNamespace = b.targetNamespace
  location : a.location = b.location
  schemas : a.schemas = b.schemas
  version : a.version = b.version
  stub : b.stub = none

inductive OptionTwin : Option PyPort → Option PyPort → Prop where
  | none : OptionTwin none none
  | some {a b} : PortTwin a b → OptionTwin (some a) (some b)

theorem portCode_twin {digest : Str → Str} {ok : Str → Bool} {v : Version} {d service port : Val} {a b : Option PyPort}
    (ha : portCode digest ok false v d service port = .ok a) (hb : portCode digest ok true v d service port = .ok b) :
    OptionTwin a b := by
  unfold portCode at ha hb
  obtain ⟨_, h1, ha⟩ := bindI ha
  obtain ⟨_, h2, ha⟩ := bindI ha
  obtain ⟨_, h3, ha⟩ := bindI ha
  simp only [h1, h2, h3, Except_ok_bind] at hb
  split at ha
  · rename_i hc
    rw [if_pos hc] at hb
    obtain ⟨_, h4, ha⟩ := bindI ha
    obtain ⟨_, h5, ha⟩ := bindI ha
    obtain ⟨_, h6, ha⟩ := bindI ha
    obtain ⟨_, h7, ha⟩ := bindI ha
    obtain ⟨_, h8, ha⟩ := bindI ha
    obtain ⟨_, k4, hb⟩ := bindI hb
    obtain ⟨_, k5, hb⟩ := bindI hb
    obtain ⟨_, k6, hb⟩ := bindI hb
    obtain ⟨_, k7, hb⟩ := bindI hb
    obtain ⟨_, k8, hb⟩ := bindI hb
    cases ha
    cases hb
    rw [h6] at k6; cases k6
    rw [h7] at k7; cases k7
    cases h4
    refine .some ⟨rfl, all2_both (fun _ _ _ => methodCode_twin) (mapE_all2 h5) (mapE_all2 k5), rfl, rfl, rfl, rfl, rfl, ?_⟩
    simp only [if_true] at k8
    obtain ⟨_, k8⟩ := seqI k8
    cases k8
    rfl
  · rename_i hc
    rw [if_neg hc] at hb
    cases ha
    cases hb
    exact .none

theorem filter_twin {as bs : List (Option PyPort)} (h : All2 OptionTwin as bs) :
    All2 PortTwin (as.filterMap id) (bs.filterMap id) := by
  induction h with
  | nil => exact .nil
  | cons h _ ih =>
    cases h with
    | none => exact ih
    | some h => exact .cons h ih

/-! ### Its execution -/

/-- What a name stands for in a client and in a server. -/
inductive Like : GlobalObj → GlobalObj → Prop where
  | same {o} : Like o o
  | method {a b} : SameMethod a b → Like (.method a) (.method b)
  | service {a b} : Like (.service a) (.service b)

/-- The globals of a client and a server. -/
def GlobalsLike (g g' : Globals) : Prop :=
  ∀ n, (g.get n = none ∧ g'.get n = none) ∨ (∃ a b, g.get n = some a ∧ g'.get n = some b ∧ Like a b) ∨
    g'.get n = some .function ∨ ∃ s, g.get n = some (.stub s)

theorem globals_cons (n m : Str) (o : GlobalObj) (g : Globals) :
    Globals.get ((n, o) :: g) m = if n = m then some o else Globals.get g m := by
  unfold Globals.get
  rw [List.find?_cons]
  by_cases h : n = m <;> simp [h]

theorem GlobalsLike.push {g g' : Globals} (h : GlobalsLike g g') {a b : GlobalObj} (hab : Like a b) (n : Str) :
    GlobalsLike ((n, a) :: g) ((n, b) :: g') := by
  intro m
  rw [globals_cons, globals_cons]
  by_cases hm : n = m
  · simp only [hm, if_true]
    exact .inr (.inl ⟨a, b, rfl, rfl, hab⟩)
  · simp only [hm, if_false]
    exact h m

theorem GlobalsLike.function {g g' : Globals} (h : GlobalsLike g g') (n : Str) :
    GlobalsLike g ((n, .function) :: g') := by
  intro m
  rw [globals_cons]
  by_cases hm : n = m
  · rw [if_pos hm]
    exact .inr (.inr (.inl rfl))
  · simp only [hm, if_false]
    exact h m

theorem GlobalsLike.stub {g g' : Globals} (h : GlobalsLike g g') (n : Str) (s : StubObj) :
    GlobalsLike ((n, .stub s) :: g) g' := by
  intro m
  rw [globals_cons]
  by_cases hm : n = m
  · simp only [hm, if_true]
    exact .inr (.inr (.inr ⟨s, rfl⟩))
  · simp only [hm, if_false]
    exact h m

theorem GlobalsLike.functions {g g' : Globals} (h : GlobalsLike g g') (l : List PyFunction) :
    GlobalsLike g (defFunctions g' l) := by
  induction l generalizing g' with
  | nil => exact h
  | cons f l ih => exact ih (h.function f.name)

theorem schemaNamed_like {g g' : Globals} (h : GlobalsLike g g') {n : Str} {s s' : GSchema}
    (h1 : schemaNamed g n = .ok s) (h2 : schemaNamed g' n = .ok s') : s = s' := by
  unfold schemaNamed at h1 h2
  rcases h n with ⟨e1, e2⟩ | ⟨a, b, e1, e2, hab⟩ | e | ⟨t, e⟩
  · rw [e1] at h1; cases h1
  · rw [e1] at h1; rw [e2] at h2
    cases hab with
    | same =>
      split at h1
      · rename_i heq
        cases heq
        cases h1; cases h2; rfl
      · cases h1
      · cases h1
    | method => cases h1
    | service => cases h1
  · rw [e] at h2; cases h2
  · rw [e] at h1; cases h1

theorem methodNamed_like {g g' : Globals} (h : GlobalsLike g g') {n : Str} {s s' : MethodObj}
    (h1 : methodNamed g n = .ok s) (h2 : methodNamed g' n = .ok s') : SameMethod s s' := by
  unfold methodNamed at h1 h2
  rcases h n with ⟨e1, e2⟩ | ⟨a, b, e1, e2, hab⟩ | e | ⟨t, e⟩
  · rw [e1] at h1; cases h1
  · rw [e1] at h1; rw [e2] at h2
    cases hab with
    | same =>
      split at h1
      · rename_i heq
        cases heq
        cases h1; cases h2
        exact ⟨rfl, rfl, rfl, rfl, rfl, rfl, rfl, rfl, rfl⟩
      · cases h1
      · cases h1
    | method hm => cases h1; cases h2; exact hm
    | service => cases h1
  · rw [e] at h2; cases h2
  · rw [e] at h1; cases h1

theorem headerNamed_like {g g' : Globals} (h : GlobalsLike g g') {n : Option Str} {s s' : Option HeaderObj}
    (h1 : headerNamed g n = .ok s) (h2 : headerNamed g' n = .ok s') : s = s' := by
  cases n with
  | none => cases h1; cases h2; rfl
  | some n =>
    simp only [headerNamed] at h1 h2
    rcases h n with ⟨e1, e2⟩ | ⟨a, b, e1, e2, hab⟩ | e | ⟨t, e⟩
    · rw [e1] at h1; cases h1
    · rw [e1] at h1; rw [e2] at h2
      cases hab with
      | same => rw [h1] at h2; cases h2; rfl
      | method => cases h1
      | service => cases h1
    · rw [e] at h2; cases h2
    · rw [e] at h1; cases h1

theorem execParam_like {g g' : Globals} (h : GlobalsLike g g') {p : Option PyParam} {s s' : WPart × Str}
    (h1 : execParam g p = .ok s) (h2 : execParam g' p = .ok s') : s = s' := by
  match p with
  | none => cases h1; cases h2; rfl
  | some (.element n q) =>
    simp only [execParam] at h1 h2
    rw [h1] at h2; cases h2; rfl
  | some (.cls n) =>
    simp only [execParam] at h1 h2
    rcases h n with ⟨e1, e2⟩ | ⟨a, b, e1, e2, hab⟩ | e | ⟨t, e⟩
    · rw [e1] at h1; cases h1
    · rw [e1] at h1; rw [e2] at h2
      cases hab with
      | same => rw [h1] at h2; cases h2; rfl
      | method => cases h1
      | service => cases h1
    · rw [e] at h2; cases h2
    · rw [e] at h1; cases h1

theorem execHeader_inv {g g1 : Globals} {h : PyHeader} (he : execHeader g h = .ok g1) : ∃ s elements,
    schemaNamed g h.schema = .ok s ∧ mapI (headerElement s) h.fields = .ok elements ∧
    g1 = (h.name, .header { name := h.name, elements := elements.filterMap id }) :: g := by
  unfold execHeader at he
  cases hb : g.get py"BaseHeader" with
  | some o => rw [hb] at he; cases he
  | none =>
    rw [hb] at he
    obtain ⟨_, he⟩ := seqI (x := .ok ()) he
    obtain ⟨s, h1, he⟩ := bindI he
    obtain ⟨els, h2, he⟩ := bindI he
    split at he
    · cases he
      exact ⟨s, els, h1, h2, rfl⟩
    · cases he

theorem execHeader_like {g g' g1 g1' : Globals} (h : GlobalsLike g g') {p : PyHeader} (h1 : execHeader g p = .ok g1)
    (h2 : execHeader g' p = .ok g1') : GlobalsLike g1 g1' := by
  obtain ⟨s, els, a1, a2, rfl⟩ := execHeader_inv h1
  obtain ⟨s', els', b1, b2, rfl⟩ := execHeader_inv h2
  obtain rfl := schemaNamed_like h a1 b1
  rw [a2] at b2
  cases b2
  exact h.push .same _

theorem execHeaders_like {l : List PyHeader} : ∀ {g g' g1 g1' : Globals}, GlobalsLike g g' →
    execHeaders g l = .ok g1 → execHeaders g' l = .ok g1' → GlobalsLike g1 g1' := by
  induction l with
  | nil => intro g g' g1 g1' h h1 h2; cases h1; cases h2; exact h
  | cons p l ih =>
    intro g g' g1 g1' h h1 h2
    rw [execHeaders] at h1 h2
    obtain ⟨_, a1, a2⟩ := bindI h1
    obtain ⟨_, b1, b2⟩ := bindI h2
    exact ih (execHeader_like h a1 b1) a2 b2

theorem execMethod_like {g g' g1 g1' : Globals} (h : GlobalsLike g g') {a b : PyMethod} (hab : MethodTwin a b)
    (h1 : execMethod g a = .ok g1) (h2 : execMethod g' b = .ok g1') : GlobalsLike g1 g1' := by
  obtain ⟨hf, rfl⟩ := hab
  unfold execMethod at h1 h2
  obtain ⟨_, a1, h1⟩ := bindI h1
  obtain ⟨_, a2, h1⟩ := bindI h1
  obtain ⟨_, a3, h1⟩ := bindI h1
  obtain ⟨_, a4, h1⟩ := bindI h1
  obtain ⟨_, a5, h1⟩ := bindI h1
  obtain ⟨_, a6, h1⟩ := bindI h1
  obtain ⟨_, a7, h1⟩ := bindI h1
  obtain ⟨_, a8, h1⟩ := bindI h1
  obtain ⟨_, a9, h1⟩ := bindI h1
  obtain ⟨_, a10, h1⟩ := bindI h1
  obtain ⟨_, b1, h2⟩ := bindI h2
  obtain ⟨_, b2, h2⟩ := bindI h2
  obtain ⟨_, b3, h2⟩ := bindI h2
  obtain ⟨_, b4, h2⟩ := bindI h2
  obtain ⟨_, b5, h2⟩ := bindI h2
  obtain ⟨_, b6, h2⟩ := bindI h2
  obtain ⟨_, b7, h2⟩ := bindI h2
  obtain ⟨_, b8, h2⟩ := bindI h2
  obtain ⟨_, b9, h2⟩ := bindI h2
  obtain ⟨_, b10, h2⟩ := bindI h2
  cases h1
  cases h2
  have hg := execHeaders_like h a1 b1
  obtain rfl := Except.ok.inj (a4.symm.trans b4)
  obtain rfl := execParam_like hg a5 b5
  obtain rfl := headerNamed_like hg a6 b6
  obtain rfl := execParam_like hg a7 b7
  obtain rfl := headerNamed_like hg a8 b8
  obtain rfl := Except.ok.inj (a9.symm.trans b9)
  obtain rfl := Except.ok.inj (a10.symm.trans b10)
  refine hg.push (.method ?_) (a.name ++ py"_method")
  exact ⟨rfl, rfl, rfl, rfl, rfl, rfl, rfl, rfl, rfl⟩

theorem execMethods_like {as bs : List PyMethod} (hl : All2 MethodTwin as bs) : ∀ {g g' g1 g1' : Globals}, GlobalsLike g g' →
    execMethods g as = .ok g1 → execMethods g' bs = .ok g1' → GlobalsLike g1 g1' := by
  induction hl with
  | nil => intro g g' g1 g1' h h1 h2; cases h1; cases h2; exact h
  | cons hab _ ih =>
    intro g g' g1 g1' h h1 h2
    rw [execMethods] at h1 h2
    obtain ⟨_, a1, a2⟩ := bindI h1
    obtain ⟨_, b1, b2⟩ := bindI h2
    exact ih (execMethod_like h hab a1 b1) a2 b2

theorem all2_three {α β γ δ : Type} {P : α → γ → Prop} {Q : β → δ → Prop} {T : α → β → Prop} {R : γ → δ → Prop}
    (h : ∀ a b c d, T a b → P a c → Q b d → R c d) {as : List α} {bs : List β} (hT : All2 T as bs) :
    ∀ {cs : List γ} {ds : List δ}, All2 P as cs → All2 Q bs ds → All2 R cs ds := by
  induction hT with
  | nil => intro cs ds h1 h2; cases h1; cases h2; exact .nil
  | cons ht _ ih =>
    intro cs ds h1 h2
    cases h1 with | cons p h1 => cases h2 with | cons q h2 => exact .cons (h _ _ _ _ ht p q) (ih h1 h2)

theorem all2_eq {α : Type} {as bs : List α} (h : All2 Eq as bs) : as = bs := by
  induction h with
  | nil => rfl
  | cons e _ ih => rw [e, ih]

theorem execService_like {g g' : Globals} (h : GlobalsLike g g') {p q : PyPort} (hpq : PortTwin p q) {s s' : ServiceObj}
    (h1 : execService g p = .ok s) (h2 : execService g' q = .ok s') : SameService s s' := by
  unfold execService at h1 h2
  obtain ⟨_, a1, h1⟩ := bindI h1
  obtain ⟨_, a2, h1⟩ := bindI h1
  obtain ⟨_, a3, h1⟩ := bindI h1
  obtain ⟨_, a4, h1⟩ := bindI h1
  obtain ⟨ss, a5, h1⟩ := bindI h1
  obtain ⟨ms, a6, h1⟩ := bindI h1
  obtain ⟨_, b1, h2⟩ := bindI h2
  obtain ⟨_, b2, h2⟩ := bindI h2
  obtain ⟨_, b3, h2⟩ := bindI h2
  obtain ⟨_, b4, h2⟩ := bindI h2
  obtain ⟨ss', b5, h2⟩ := bindI h2
  obtain ⟨ms', b6, h2⟩ := bindI h2
  cases h1
  cases h2
  rw [← hpq.name] at b2
  rw [← hpq.targetNamespace] at b3
  rw [← hpq.location] at b4
  rw [← hpq.schemas] at b5
  refine ⟨Except.ok.inj (a2.symm.trans b2), Except.ok.inj (a3.symm.trans b3), Except.ok.inj (a4.symm.trans b4), ?_, ?_,
    hpq.version⟩
  · have := all2_both (R := Eq) (fun _ _ _ => schemaNamed_like h) (mapI_inv a5) (mapI_inv b5)
    exact all2_eq this
  · refine all2_three (fun a b c d hab hc hd => ?_) hpq.methods (mapI_inv a6) (mapI_inv b6)
    obtain ⟨_, rfl⟩ := hab
    exact methodNamed_like h hc hd

theorem execPort_like {g g' : Globals} (h : GlobalsLike g g') {p q : PyPort} (hpq : PortTwin p q)
    {r r' : Globals × PortObj} (h1 : execPort g p = .ok r) (h2 : execPort g' q = .ok r') :
    GlobalsLike r.1 r'.1 ∧ SameService r.2.service r'.2.service := by
  unfold execPort at h1 h2
  rw [hpq.functions] at h1
  obtain ⟨g1, a1, h1⟩ := bindI h1
  obtain ⟨s1, a2, h1⟩ := bindI h1
  obtain ⟨g2, b1, h2⟩ := bindI h2
  obtain ⟨s2, b2, h2⟩ := bindI h2
  have hg := execMethods_like hpq.methods (h.functions q.functions) a1 b1
  have hs := execService_like hg hpq a2 b2
  rw [hpq.stub] at h2
  cases h2
  have hg2 : GlobalsLike ((p.name ++ py"_SERVICE", .service s1) :: g1) ((q.name ++ py"_SERVICE", .service s2) :: g2) := by
    rw [← hpq.name]
    exact hg.push .service _
  split at h1
  · cases h1
    exact ⟨hg2, hs⟩
  · obtain ⟨st, _, h1⟩ := bindI h1
    cases h1
    exact ⟨hg2.stub _ st, hs⟩

theorem execPorts_like {as bs : List PyPort} (hl : All2 PortTwin as bs) : ∀ {g g' : Globals} {r r' : Globals × List PortObj},
    GlobalsLike g g' → execPorts g as = .ok r → execPorts g' bs = .ok r' →
    All2 (fun o o' : PortObj => SameService o.service o'.service) r.2 r'.2 := by
  induction hl with
  | nil => intro g g' r r' h h1 h2; cases h1; cases h2; exact .nil
  | cons hab _ ih =>
    intro g g' r r' h h1 h2
    rw [execPorts] at h1 h2
    obtain ⟨_, a1, h1⟩ := bindI h1
    obtain ⟨_, a2, h1⟩ := bindI h1
    obtain ⟨_, b1, h2⟩ := bindI h2
    obtain ⟨_, b2, h2⟩ := bindI h2
    cases h1
    cases h2
    obtain ⟨hg, hs⟩ := execPort_like h hab a1 b1
    exact .cons hs (ih hg a2 b2)

theorem GlobalsLike.refl (g : Globals) : GlobalsLike g g := by
  intro n
  cases h : g.get n with
  | none => exact .inl ⟨rfl, rfl⟩
  | some o => exact .inr (.inl ⟨o, o, rfl, rfl, .same⟩)

/-- **C94 (same services).** The services in client code and in server code generated from the same WSDL document are the
same, except that only those of a server have functions. -/
theorem C94_services {digest : Str → Str} {ok : Str → Bool} {prefixes : List (Option Str)} {n limit : Nat} {v : Version}
    {d : Val} {m m' : PyWsdlModule} {G G' : Globals} {os os' : List PortObj}
    (hm : wsdlToPy digest ok prefixes n false v d = .ok m) (he : execWsdl limit m = .ok (G, os))
    (hm' : wsdlToPy digest ok prefixes n true v d = .ok m') (he' : execWsdl limit m' = .ok (G', os')) :
    All2 (fun o o' : PortObj => SameService o.service o'.service) os os' := by
  unfold wsdlToPy at hm hm'
  obtain ⟨_, a1, hm⟩ := bindI hm
  obtain ⟨_, a2, hm⟩ := bindI hm
  obtain ⟨_, b1, hm'⟩ := bindI hm'
  obtain ⟨_, b2, hm'⟩ := bindI hm'
  obtain rfl := Except.ok.inj (a1.symm.trans b1)
  cases hm
  cases hm'
  unfold execWsdl at he he'
  obtain ⟨_, he⟩ := seqI he
  obtain ⟨_, he⟩ := seqI he
  obtain ⟨r, hr, he⟩ := bindI he
  obtain ⟨_, he'⟩ := seqI he'
  obtain ⟨_, he'⟩ := seqI he'
  obtain ⟨r', hr', he'⟩ := bindI he'
  obtain rfl := Except.ok.inj (hr.symm.trans hr')
  have hp := filter_twin (all2_both (fun _ _ _ => portCode_twin) (mapE_all2 a2) (mapE_all2 b2))
  exact execPorts_like hp (.refl _) he he'

/-! ### Programs -/

theorem find_method {W W' : World} {R : MethodId → MethodId → Prop}
    (hR : ∀ i j, R i j → (W.method i).operationName = (W'.method j).operationName) (op : Str) {is js : List MethodId}
    (h : All2 R is js) :
    (is.find? (fun m => (W.method m).operationName = op) = none ∧ js.find? (fun m => (W'.method m).operationName = op) = none) ∨
    ∃ i j, is.find? (fun m => (W.method m).operationName = op) = some i ∧
      js.find? (fun m => (W'.method m).operationName = op) = some j ∧ R i j := by
  induction h with
  | nil => exact .inl ⟨rfl, rfl⟩
  | @cons i j _ _ hij _ ih =>
    by_cases hi : (W.method i).operationName = op
    · exact .inr ⟨i, j, by simp [hi], by simp [← hR i j hij, hi], hij⟩
    · have hj : (W'.method j).operationName ≠ op := hR i j hij ▸ hi
      simp only [List.find?_cons, hi, hj, decide_false]
      exact ih

/-- The type of an element, if it is found. -/
def typeFound (x : Except Exn (Option SElem)) : Except Exn (Option FType) := x.map (·.map (·.type))

theorem typeFound_element {W : World} {i : SchemaId} {n : Str} {k : Nat} (h1 : (W.schema i).imports = [])
    (h2 : (W.schema i).includes = []) :
    typeFound (elementByName W n (k + 1) i) = .ok (((W.schema i).elements.get? n).map (·.type)) := by
  rw [elementByName, h1, h2]
  cases (W.schema i).elements.get? n with
  | none => rfl
  | some e => rfl

theorem typeFound_first {f g : SchemaId → Except Exn (Option SElem)} {is js : List SchemaId}
    (h : All2 (fun i j => ∃ t, typeFound (f i) = .ok t ∧ typeFound (g j) = .ok t) is js) :
    typeFound (firstE f is) = typeFound (firstE g js) := by
  induction h with
  | nil => rfl
  | @cons i j _ _ hij _ ih =>
    obtain ⟨t, hi, hj⟩ := hij
    rw [firstE, firstE]
    cases hfi : f i with
    | error e => rw [hfi] at hi; cases hi
    | ok o =>
      cases hgj : g j with
      | error e => rw [hgj] at hj; cases hj
      | ok o' =>
        rw [hfi] at hi
        rw [hgj] at hj
        have hi' : o.map (·.type) = t := Except.ok.inj hi
        have hj' : o'.map (·.type) = t := Except.ok.inj hj
        cases o with
        | none =>
          cases o' with
          | none => exact ih
          | some e' => rw [← hi'] at hj'; cases hj'
        | some e =>
          cases o' with
          | none => rw [← hj'] at hi'; cases hi'
          | some e' =>
            show Except.ok (some e.type) = Except.ok (some e'.type)
            exact congrArg _ (hi'.trans hj'.symm)

theorem answerBody_type (W : World) (S : Service) (m : Method) (body : Val) : answerBody W S m body =
    match m.output with
    | .name n => (match typeFound (S.findElement W n) with
      | .ok (some (.complex c)) => bodyParseAs (W.table S) W.depth c body
      | .ok (some _) => .error .typeError
      | .ok none => .error .attributeError
      | .error e => .error e)
    | .cls c => bodyParseAs (W.table S) W.depth c body
    | .none => .error .attributeError := by
  unfold answerBody
  cases m.output with
  | none => rfl
  | cls c => rfl
  | name n =>
    simp only
    cases S.findElement W n with
    | error e => rfl
    | ok o =>
      cases o with
      | none => rfl
      | some e =>
        obtain ⟨t, _⟩ := e
        cases t <;> rfl

section
variable {W W' : World} {S S' : Service} {o o' : ServiceObj} {type : GTop → FType} {header : HeaderObj → ClsId}
  {cls : Str → ClsId}

theorem runs_types (h : Runs W S o type header cls) (h' : Runs W' S' o' type header cls) (hs : o.schemas = o'.schemas)
    (hd : W.depth = W'.depth) (hp : 0 < W.depth) (n : Str) : typeFound (S.findElement W n) = typeFound (S'.findElement W' n) := by
  unfold Service.findElement
  obtain ⟨k, hk⟩ : ∃ k, W.depth = k + 1 := ⟨W.depth - 1, by omega⟩
  rw [← hd, hk]
  refine typeFound_first ?_
  have h2 := h'.schemas
  rw [← hs] at h2
  refine (h.schemas.comp h2.flip).imp ?_
  rintro i j ⟨g, ⟨a1, a2, a3⟩, b1, b2, b3⟩
  exact ⟨_, typeFound_element a1 a2, (typeFound_element b1 b2).trans (congrArg _ ((b3 n).trans (a3 n).symm))⟩

/-- **C94 (same calls).** Two programs whose services are described in the same way call every operation in the same way,
whatever the answer: the same documents are sent, with the same HTTP headers, and answers are understood in the same way. -/
theorem C94_calls (hW : Alike W W') (h : Runs W S o type header cls) (h' : Runs W' S' o' type header cls)
    (ho : SameService o o') (hp : 0 < W.depth) (post : Dict Str → Bytes → Except Exn Bytes) (op : Str) (param hdr : Val) :
    stubCall W S post op param hdr = stubCall W' S' post op param hdr := by
  have hv : S.version = S'.version := h.version.trans (ho.version.trans h'.version.symm)
  have htable : W.table S = W'.table S' := by unfold World.table; rw [hv, hW.user]
  have hmethods : All2 (fun i j => (W.method i).operationName = (W'.method j).operationName ∧
      (W.method i).soapAction = (W'.method j).soapAction ∧ (W.method i).input = (W'.method j).input ∧
      (W.method i).output = (W'.method j).output ∧ (W.method i).outputHeader = (W'.method j).outputHeader)
      S.methods S'.methods := by
    refine ((h.methods.comp ho.methods).comp h'.methods.flip).imp ?_
    rintro i j ⟨k', ⟨k, ⟨a1, a2, a3, a4, _, a6⟩, hk⟩, b1, b2, b3, b4, _, b6⟩
    exact ⟨a1.trans (hk.operationName.trans b1.symm), a2.trans (hk.soapAction.trans b2.symm),
      a3.trans ((congrArg _ hk.input).trans b3.symm), a4.trans ((congrArg _ hk.output).trans b4.symm),
      a6.trans ((congrArg _ hk.outputHeader).trans b6.symm)⟩
  unfold stubCall Service.getMethod
  rcases find_method (fun _ _ h => h.1) op hmethods with ⟨e1, e2⟩ | ⟨i, j, e1, e2, _, h2, h3, h4, h5⟩
  · rw [e1, e2]; rfl
  · rw [e1, e2]
    have hdoc : callDoc W S (W.method i) param hdr = callDoc W' S' (W'.method j) param hdr := by
      unfold callDoc callTag
      rw [h3, htable, hv, hW.depth]
    have hres : ∀ content, handleResponse W S (W.method i) content = handleResponse W' S' (W'.method j) content := by
      intro content
      have hhead : ∀ v, answerHeader W S (W.method i) v = answerHeader W' S' (W'.method j) v := by
        intro v
        unfold answerHeader
        rw [h5, htable, hW.depth]
      have hbody : ∀ v, answerBody W S (W.method i) v = answerBody W' S' (W'.method j) v := by
        intro v
        rw [answerBody_type, answerBody_type, h4, htable, hW.depth]
        cases (W'.method j).output with
        | none => rfl
        | cls c => rfl
        | name n => simp only [runs_types h h' ho.schemas hW.depth hp n]
      unfold handleResponse readAnswer
      simp only [hW.read, htable, hW.depth, hhead, hbody, hv]
    show (do
      let doc ← raised (callDoc W S (W.method i) param hdr)
      let content ← raised (post (S.version.requestHeaders (W.method i).soapAction) (W.write doc))
      handleResponse W S (W.method i) content : Except CallError Response) = (do
      let doc ← raised (callDoc W' S' (W'.method j) param hdr)
      let content ← raised (post (S'.version.requestHeaders (W'.method j).soapAction) (W'.write doc))
      handleResponse W' S' (W'.method j) content)
    simp only [hdoc, hv, h2, hW.write, hres]

theorem all2_at {α β : Type} {R : α → β → Prop} {as : List α} {bs : List β} (h : All2 R as bs) :
    ∀ {k : Nat} {a : α} {b : β}, as[k]? = some a → bs[k]? = some b → R a b := by
  induction h with
  | nil => intro k a b ha; cases ha
  | cons h _ ih =>
    intro k a b ha hb
    cases k with
    | zero => cases ha; cases hb; exact h
    | succ k => exact ih ha hb

/-- **C94 (from end to end).** A client runs code generated from a WSDL document, a server code generated from the same
document.  If a method of the server computes `g`, then calling the operation gives the client, for every parameter object
that survives, a response with the value of `g` for a parameter with the same fields - provided the two documents survive
transport and the request is valid. -/
theorem C94_call {digest : Str → Str} {ok : Str → Bool} {prefixes : List (Option Str)} {n limit : Nat} {v : Version}
    {description : Val} {code code' : PyWsdlModule} {G G' : Globals} {os os' : List PortObj} {port port' : PortObj} {k : Nat}
    (hm : wsdlToPy digest ok prefixes n false v description = .ok code) (he : execWsdl limit code = .ok (G, os))
    (hm' : wsdlToPy digest ok prefixes n true v description = .ok code') (he' : execWsdl limit code' = .ok (G', os'))
    (hk : os[k]? = some port) (hk' : os'[k]? = some port') (hW : Alike W W') (d : DispId)
    (hrun : Runs W S port.service type header cls) (hrun' : Runs W' (W'.disp d).service port'.service type header cls)
    (m : MethodId) (op tin tout : Str) (cin cout : ClsId) (R : Serves W' d m tin tout cin cout)
    (hop : First (fun m => (W'.method m).operationName = op) (W'.disp d).service.methods m)
    (g : Val → Val) (hg : (W'.method m).function = some fun _ p => .ret (.obj (.val (g p))))
    (s : State) (env : Dict Str → Env) (henv : ∀ hs, env hs py"REQUEST_METHOD" = some py"POST")
    (hh : Handles W' (W'.disp d).service
      (env ((W'.disp d).service.version.requestHeaders (W'.method m).soapAction)) tin m)
    (fs : List (Str × Val)) (x : Option Xml) (doc : Xml)
    (hs : Survives (W'.table (W'.disp d).service) W'.depth (.complex cin) (.inst cin fs x))
    (hdoc : callDoc W' (W'.disp d).service (W'.method m) (.inst cin fs x) Val.none = .ok doc) (ht : Travels W' doc)
    (hval : ∀ doc' y, W'.read (W'.write doc) = some doc' → PlainMessage doc' none y → (W'.disp d).validator y = .ok ())
    (hres : ∀ p, p.Same (.inst cin fs x) → ∃ fs' x' doc', g p = .inst cout fs' x' ∧
      Survives (W'.table (W'.disp d).service) W'.depth (.complex cout) (.inst cout fs' x') ∧
      responseXml (W'.disp d).service.version (W'.table (W'.disp d).service) W'.depth tout (.inst cout fs' x') Val.none =
        .ok doc' ∧ Travels W' doc') :
    ∃ p w, p.Same (.inst cin fs x) ∧ w.Same (g p) ∧
      stubCall W S (fun hs content => served W' d s (env hs) content) op (.inst cin fs x) Val.none =
        .ok (mkResponse (.val w)) := by
  have hsame := all2_at (C94_services hm he hm' he') hk hk'
  have hd : 0 < W.depth := by rw [hW.depth]; have := R.depth; omega
  obtain ⟨p, w, h1, h2, h3⟩ := C52_call W' d m op tin tout cin cout R hop g hg s env henv hh fs x doc hs hdoc ht hval hres
  exact ⟨p, w, h1, h2, by rw [C94_calls hW hrun hrun' hsame hd]; exact h3⟩

end

namespace Ex

/-- A document of a service that says hello. -/
def helloDocument : Val := obj [
  (py"targetNamespace", txt py"urn:x"),
  (py"types", obj [(py"schemas", .list true [obj [(py"targetNamespace", txt py"urn:x"),
    (py"complexTypes", .list true [
      obj [(py"name", txt py"SayHello"), (py"sequence", obj [(py"elements", .list true [
        obj [(py"name", txt py"name"), (py"type", txt py"xsd:string")]])])],
      obj [(py"name", txt py"SayHelloResponse"), (py"sequence", obj [(py"elements", .list true [
        obj [(py"name", txt py"greeting"), (py"type", txt py"xsd:string")]])])]]),
    (py"elements", .list true [
      obj [(py"name", txt py"sayHello"), (py"type", txt py"tns:SayHello")],
      obj [(py"name", txt py"sayHelloResponse"), (py"type", txt py"tns:SayHelloResponse")]])]])]),
  (py"messages", .list true [message py"in" [elementPart py"body" py"tns:sayHello"],
    message py"out" [elementPart py"body" py"tns:sayHelloResponse"]]),
  (py"portTypes", .list true [obj [(py"name", txt py"PT"), (py"operations", .list true [
    obj [(py"name", txt py"SayHello"), (py"input", obj [(py"message", txt py"tns:in")]),
      (py"output", obj [(py"message", txt py"tns:out")])]])]]),
  (py"bindings", .list true [
    obj [(py"name", txt py"Soap"), (py"type", txt py"tns:PT"), (py"binding", obj [(py"transport", txt nsSoapHttp)]),
      (py"operations", .list true [obj [(py"name", txt py"SayHello"), (py"operation", action (txt py"urn:x/hello"))]])]]),
  (py"services", .list true [obj [(py"name", txt py"S"), (py"ports", .list true [
    obj [(py"name", txt py"P"), (py"binding", txt py"tns:Soap"),
      (py"address", obj [(py"location", txt py"http://host/hello")])]])]])]

/-- The services of the code for a document. -/
def portsOf (server : Bool) (d : Val) : Option (List PortObj) :=
  (wsdlToPy digest5 (fun _ => true) [some py"xsd"] 1 server .soap11 d).toOption.bind fun m =>
    (execWsdl 3 m).toOption.map (·.2)

theorem portsOf_some {server : Bool} {d : Val} {os : List PortObj} (h : portsOf server d = some os) : ∃ m G,
    wsdlToPy digest5 (fun _ => true) [some py"xsd"] 1 server .soap11 d = .ok m ∧ execWsdl 3 m = .ok (G, os) := by
  unfold portsOf at h
  cases hm : wsdlToPy digest5 (fun _ => true) [some py"xsd"] 1 server .soap11 d with
  | error e => rw [hm] at h; cases h
  | ok m =>
    rw [hm] at h
    cases he : execWsdl 3 m with
    | error e => simp only [Except.toOption, Option.bind_some, he] at h; cases h
    | ok r =>
      simp only [Except.toOption, Option.bind_some, he] at h
      cases h
      exact ⟨m, r.1, rfl, he⟩

/-- The method of the server, and that of the client, which has no function. -/
def greeter : Method := { ExC.hello with inputHeader := none }
def caller : Method := { greeter with function := none }

/-- The types of the elements: classes 8 and 9. -/
def helloType (e : GTop) : FType :=
  match e.type with
  | .ofClass (.complex c) => if c = py"SayHello" then .complex 8 else .complex 9
  | _ => .simple (.string {})

def helloService : Service := { schemas := [0], methods := [0] }

theorem two_elements {a b : Str} {x y : SElem} {e f : GTop} {type : GTop → FType} (h1 : e.name = a) (h2 : f.name = b)
    (h3 : x.type = type e) (h4 : y.type = type f) (n : Str) :
    (Dict.get? [(a, x), (b, y)] n).map (·.type) = ([e, f].find? fun t => t.name = n).map type := by
  subst h1 h2
  by_cases h : e.name = n
  · simp [Dict.get?, List.find?, h, h3]
  · by_cases h' : f.name = n <;> simp [Dict.get?, List.find?, h, h', h4]

/-- The code for the client, and that for the server, describes these services. -/
theorem hello_runs (server : Bool) : ∃ o, portsOf server helloDocument = some [o] ∧
    Runs (ExC.world (if server then greeter else caller)) helloService o.service helloType (fun _ => 10) (fun _ => 0) := by
  cases server <;> exact ⟨_, rfl, rfl, .cons ⟨rfl, rfl, rfl, rfl, rfl, rfl⟩ .nil,
    .cons ⟨rfl, rfl, two_elements rfl rfl rfl rfl⟩ .nil⟩

/-- Only the server has a function. -/
example : ∃ o o', portsOf false helloDocument = some [o] ∧ portsOf true helloDocument = some [o'] ∧
    SameService o.service o'.service ∧ o.service.methods.map (·.function) = [none] ∧
    o'.service.methods.map (·.function) = [some py"SayHello"] := by
  obtain ⟨o, h, hf⟩ : ∃ o, portsOf false helloDocument = some [o] ∧ o.service.methods.map (·.function) = [none] := ⟨_, rfl, rfl⟩
  obtain ⟨o', h', hf'⟩ : ∃ o, portsOf true helloDocument = some [o] ∧
    o.service.methods.map (·.function) = [some py"SayHello"] := ⟨_, rfl, rfl⟩
  obtain ⟨m, G, hm, he⟩ := portsOf_some h
  obtain ⟨m', G', hm', he'⟩ := portsOf_some h'
  cases C94_services hm he hm' he' with
  | cons hs _ => exact ⟨o, o', h, h', hs, hf, hf'⟩

/-- The client is answered by the server. -/
example : ∃ p w, p.Same ExC.call ∧ w.Same (ExC.greet p) ∧
    stubCall (ExC.world caller) helloService (fun hs content => served (ExC.world greeter) 0 {} (ExC.environ hs) content)
      py"SayHello" ExC.call Val.none = .ok (mkResponse (.val w)) := by
  obtain ⟨o, h, hr⟩ := hello_runs false
  obtain ⟨o', h', hr'⟩ := hello_runs true
  replace hr : Runs (ExC.world caller) helloService o.service helloType (fun _ => 10) (fun _ => 0) := hr
  replace hr' : Runs (ExC.world greeter) ((ExC.world greeter).disp 0).service o'.service helloType (fun _ => 10) (fun _ => 0) := hr'
  obtain ⟨m, G, hm, he⟩ := portsOf_some h
  obtain ⟨m', G', hm', he'⟩ := portsOf_some h'
  refine C94_call (W := ExC.world caller) (W' := ExC.world greeter) (k := 0) hm he hm' he' rfl rfl ⟨rfl, rfl, rfl, rfl⟩ 0 hr hr' 0 py"SayHello" py"sayHello" py"sayHelloResponse" 8 9
    ⟨by decide, ExC.sane, rfl, rfl, rfl, rfl, ⟨_, rfl, rfl⟩, by decide, rfl, ⟨_, rfl, rfl⟩, by decide⟩
    ⟨[], [], rfl, rfl, by simp⟩ ExC.greet rfl {} ExC.environ (fun _ => rfl)
    (.input (fun a h => ?_) ⟨[], [], rfl, rfl, by simp⟩) _ none (ExC.env [ExC.bodyDoc ExC.ask])
    (ExC.survives 8 _ _ none (.inl ⟨rfl, rfl⟩) (by decide)) rfl
    ⟨_, rfl, ExC.nest_back (.cons (ExC.nest_back (.cons (ExC.nest_back (.cons (ExC.text_back _ _ _) .nil)) .nil)) .nil)⟩
    (fun _ _ _ _ => rfl) ExC.greets
  have : Version.determineAction .soap11 (ExC.environ (Version.soap11.requestHeaders py"urn:x/hello")) = none := by
    decide +kernel
  exact absurd (this.symm.trans h.1) (by simp)

end Ex

end Soapfish
