import Verif.PairedSurvive
/-
Two programs with classes of their own that describe the same documents (C103).
-/
namespace Soapfish

section
variable {R : ClsId → ClsId → Prop} {T T' : Table}

/-- **C103 (writing).** Let classes of two programs go together: same kinds of fields in the same order, written under the
same names, of types that go together.  Whatever the classes, and the fields in Python, are called: values that go together
are written as the same element, or writing them raises the same exception. -/
theorem C103_write (hP : Paired R T T') (hT : T.Wf) (hT' : T'.Wf) (n : Nat) (v v' : Val) (hv : ValPair R T T' v v')
    (tagname : Str) (ns : Option Str) (q : Bool) : toXml T n v tagname ns q = toXml T' n v' tagname ns q := by
  have key := fun c c' hr => renderCls_pair hP hT hT' n c c' v v' ns q hr hv
  unfold toXml
  cases hv with
  | inst hr => simp only [key _ _ hr]
  | _ => rfl

/-- **C103 (counterparts).** Every value of one program that survives being written and read has a counterpart in the other
program, which survives as well - if the names of the other program's classes are unambiguous. -/
theorem C103_counterpart (hP : Paired R T T') (hT : T.Wf) (hT' : T'.Sane) (hU : ∀ c c', R c c' → Unambiguous T' c')
    (N : Nat) (c c' : ClsId) (hr : R c c') (v : Val) (hs : Survives T N (.complex c) v) :
    ∃ v', ValPair R T T' v v' ∧ Survives T' N (.complex c') v' :=
  survives_pair hP hT hT'.names hT'.self hU hs _ (.complex hr)

/-- **C103 (reading).** What one program wrote, the other one reads as a value that goes with it. -/
theorem C103_read (hP : Paired R T T') (hT : T.Wf) (hT' : T'.Sane) (hU : ∀ c c', R c c' → Unambiguous T' c')
    (n : Nat) (c c' : ClsId) (hr : R c c') (v : Val) (hs : Survives T n (.complex c) v) (tagname : Str) (ns : Option Str)
    (q : Bool) (x y : Xml) (hx : toXml T n v tagname ns q = .ok x) (hb : Back x y) :
    ∃ w, parseCls T' n n c' y = .ok w ∧ ValPair R T T' v w := by
  obtain ⟨v', hv, hs'⟩ := C103_counterpart hP hT hT' hU n c c' hr v hs
  rw [C103_write hP hT hT'.names n v v' hv] at hx
  cases hs' with
  | inst h1 h2 h3 h4 h5 h6 =>
    unfold toXml at hx
    simp only at hx
    obtain ⟨o, ho, hx2⟩ := bind_eq_ok.1 hx
    cases n with
    | zero => cases ho
    | succ n =>
      unfold renderCls at ho
      simp only [h2, Bool.false_eq_true, false_and, if_false] at ho
      rw [← Except.ok.inj hx2] at hb
      obtain ⟨_, w, hw, hsame⟩ := object_back hT' (N := n + 1) (Nat.le_refl _) (.inst h1 h2 h3 h4 h5 h6) ho hb
      exact ⟨w, hw, (hv.swap.same hsame).swap⟩

end

/-- The documents of paired objects are the same. -/
theorem responseXml_pair {R : ClsId → ClsId → Prop} {W W' : World} {S S' : Service} (hW : Partners R W S W' S')
    (hD : 4 ≤ W.depth) {c c' : ClsId} {fs fs' : List (Str × Val)} {x x' : Option Xml}
    (hv : ValPair R (W.table S) (W'.table S') (.inst c fs x) (.inst c' fs' x')) (tag : Str) :
    responseXml S.version (W.table S) W.depth tag (.inst c fs x) Val.none =
      responseXml S'.version (W'.table S') W'.depth tag (.inst c' fs' x') Val.none := by
  obtain ⟨k, hk⟩ := world_depth hD
  cases hv with
  | inst hr h1 h2 h3 =>
    have hroot := hW.roots _ _ hr
    have hP := hW.classes
    have hc := hP _ _ hr
    have hren := fun ns q => renderFields_pair hP (renderCls_pair hP hW.sane.1.names hW.sane.2.names (k + 1)) ns q hc.fields
      (pairs_get hc.fields h1 h2 (hW.sane.1.names _) (hW.sane.2.names _) h3)
    have hs := hc.schema
    unfold World.table at hroot hren hs ⊢
    rw [← hW.depth, hk, responseXml_inst, responseXml_inst]
    rw [if_pos (by simpa [isSub] using hroot.1), if_pos (by simpa [isSub] using hroot.2)]
    rw [envelopeXml_none, envelopeXml_none, renderBody_named, renderBody_named, hs]
    cases hs' : (soapTable S'.version W'.user c').schema with
    | none => simp only [hW.version]
    | some s =>
      simp only [hren]
      simp only [hW.version]

/-- **C103.** From end to end: a client with classes of its own, that go with those of the server, calls an operation whose
method computes `g`.  The method gets a parameter that goes with the client's, and the client a response that goes with
the method's value - provided the two documents survive transport and the request is valid. -/
theorem C103_call {R : ClsId → ClsId → Prop} (W : World) (S : Service) (W' : World) (d : DispId)
    (hW : Partners R W S W' (W'.disp d).service) (m₀ m : MethodId) (op tin tout : Str) (cin cout cin' cout' : ClsId)
    (hcin : R cin cin') (hcout : R cout cout') (hcl : ClientMethod W S m₀ op tin tout cout)
    (hs : Serves W' d m tin tout cin' cout')
    (g : Val → Val) (hg : (W'.method m).function = some fun _ p => .ret (.obj (.val (g p))))
    (s : State) (env : Dict Str → Env) (henv : ∀ hs, env hs py"REQUEST_METHOD" = some py"POST")
    (hm : Handles W' (W'.disp d).service (env (S.version.requestHeaders (W.method m₀).soapAction)) tin m)
    (v : Val) (doc : Xml) (hv : Survives (W.table S) W.depth (.complex cin) v)
    (hdoc : callDoc W S (W.method m₀) v Val.none = .ok doc) (ht : Travels W doc)
    (hval : ∀ doc' y, W'.read (W.write doc) = some doc' → PlainMessage doc' none y → (W'.disp d).validator y = .ok ())
    (hres : ∀ p, ValPair R (W.table S) (W'.table (W'.disp d).service) v p → ∃ doc',
      Survives (W'.table (W'.disp d).service) W'.depth (.complex cout') (g p) ∧
      responseXml (W'.disp d).service.version (W'.table (W'.disp d).service) W'.depth tout (g p) Val.none = .ok doc' ∧
      Travels W' doc') :
    ∃ p w, ValPair R (W.table S) (W'.table (W'.disp d).service) v p ∧
      ValPair R (W.table S) (W'.table (W'.disp d).service) w (g p) ∧
      stubCall W S (fun hs content => served W' d s (env hs) content) op v Val.none = .ok (mkResponse (.val w)) := by
  have hD : 4 ≤ W.depth := by rw [hW.depth]; exact hs.depth
  obtain ⟨v', hvv, hv'⟩ := C103_counterpart hW.classes hW.sane.1.names hW.sane.2 (fun c c' h => (hW.unambiguous c c' h).2)
    W.depth cin cin' hcin v hv
  have hdoc1 : responseXml S.version (W.table S) W.depth tin v Val.none = .ok doc := by
    have h := hdoc
    unfold callDoc callTag at h
    rw [hcl.input] at h
    exact h
  have hinst : ∃ fs x fs' x', v = .inst cin fs x ∧ v' = .inst cin' fs' x' := by
    cases hv with
    | inst =>
      cases hv' with
      | inst => exact ⟨_, _, _, _, rfl, rfl⟩
  obtain ⟨fs, x, fs', x', rfl, rfl⟩ := hinst
  rw [responseXml_pair hW hD hvv] at hdoc1
  have htr : ∀ {doc}, Travels W doc → Travels W' doc := by
    rintro doc ⟨doc', h1, h2⟩
    exact ⟨doc', by rw [← hW.read, ← hW.write]; exact h1, h2⟩
  have htr' : ∀ {doc}, Travels W' doc → Travels W doc := by
    rintro doc ⟨doc', h1, h2⟩
    exact ⟨doc', by rw [hW.read, hW.write]; exact h1, h2⟩
  have hpair : ∀ p, p.Same (.inst cin' fs' x') → ValPair R (W.table S) (W'.table (W'.disp d).service) (.inst cin fs x) p :=
    fun p hp => (hvv.swap.same hp).swap
  obtain ⟨p, fs2, x2, doc', h1, h2, h3, h4, h5, h6⟩ := C52_served W' d m tin tout cin' cout' hs g hg s _ (henv _) hm fs' x' doc
    (by rw [← hW.depth]; exact hv') hdoc1 (htr ht) (by rw [← hW.write]; exact hval) fun p hp => by
      obtain ⟨doc', e1, e2, e3⟩ := hres p (hpair p hp)
      have : ∃ fs x, g p = .inst cout' fs x := by
        generalize g p = r at e1
        cases e1; exact ⟨_, _, rfl⟩
      obtain ⟨fs2, x2, he⟩ := this
      rw [he] at e1 e2
      exact ⟨fs2, x2, doc', he, e1, e2, e3⟩
  obtain ⟨u, huv, hu⟩ := C103_counterpart hW.classes.swap hW.sane.2.names hW.sane.1 (fun c c' h => (hW.unambiguous c' c h).1)
    W'.depth cout' cout hcout _ h3
  have huinst : ∃ fs x, u = .inst cout fs x := by
    cases hu; exact ⟨_, _, rfl⟩
  obtain ⟨fs3, x3, rfl⟩ := huinst
  obtain ⟨e, he1, he2⟩ := hcl.outputType
  have hdoc2 : responseXml S.version (W.table S) W.depth tout (.inst cout fs3 x3) Val.none = .ok doc' := by
    rw [responseXml_pair hW hD huv.swap]; exact h4
  obtain ⟨w, hvw, hw1, hw2, hw3⟩ := C52_client W S (W.method m₀) tout cout hD hW.sane.1 hs.outputName.1 hs.outputName.2
    (.inr ⟨tout, e, hcl.output, he1, he2⟩) fs3 x3 Val.none doc' (by rw [hW.depth]; exact hu) (.inl rfl) hdoc2 (htr' h5)
  refine ⟨p, w, hpair p h1, by rw [h2]; exact huv.swap.same hw1, ?_⟩
  rw [same_none hw2] at hw3
  unfold stubCall
  have h6' : served W' d s (env (S.version.requestHeaders (W.method m₀).soapAction)) (W.write doc) = .ok (W.write doc') := by
    rw [hW.write]; exact h6
  simp only [getMethod_iff.2 hcl.method, hdoc, raised, bind, Except.bind, h6']
  exact hw3

namespace ExP

/-- A client with classes of its own for the documents of the server above: `Question` (class 20), whose field `who` is
written as 'name', and `Answer` (class 21), whose field `text` is written as 'greeting'. -/
def user : Table
  | 20 => { name := py"Question", mro := [20, 0], schema := some ⟨some ExC.ns, false⟩, fields := [
      { name := py"who", kind := .element, type := .simple (.string {}), tagname := some py"name" }] }
  | 21 => { name := py"Answer", mro := [21, 0], schema := some ⟨some ExC.ns, false⟩, fields := [
      { name := py"text", kind := .element, type := .simple (.string {}), tagname := some py"greeting" }] }
  | n => { name := py"Other", mro := [n, 0], fields := [] }

def schema : Schema where
  targetNamespace := ExC.ns
  elements := [(py"sayHello", { type := .complex 20 }), (py"sayHelloResponse", { type := .complex 21 })]

def hello : Method where
  operationName := py"Hello"
  soapAction := py"urn:x/hello"
  input := .name py"sayHello"
  output := .name py"sayHelloResponse"
  function := none

def world : World := { ExC.world with user := user, schema := fun _ => schema, method := fun _ => hello }
def service : Service := { schemas := [0], methods := [0] }

/-- `Question` goes with `SayHello`, `Answer` with `SayHelloResponse`. -/
def R : ClsId → ClsId → Prop := fun c c' => c = 20 ∧ c' = 8 ∨ c = 21 ∧ c' = 9

theorem sane : (soapTable .soap11 user).Sane where
  names := by
    intro c
    match c with
    | 0 | 1 | 2 | 3 | 4 | 5 | 6 | 7 | 8 | 9 | 10 | 11 | 12 | 13 | 14 | 15 | 16 | 17 | 18 | 19 | 20 | 21 => decide
    | n + 22 => exact List.Pairwise.nil
  self := by
    intro c
    match c with
    | 0 | 1 | 2 | 3 | 4 | 5 | 6 | 7 | 8 | 9 | 10 | 11 | 12 | 13 | 14 | 15 | 16 | 17 | 18 | 19 | 20 | 21 => decide
    | n + 22 => simp [soapTable, user]
  defaults := by
    intro c f c' hf ht
    refine .inr ?_
    have : f.default = Val.none := by
      match c with
      | 0 | 1 | 2 | 3 | 4 | 5 | 6 | 7 | 8 | 9 | 10 | 11 | 12 | 13 | 14 | 15 | 16 | 17 | 18 | 19 | 20 | 21 =>
        simp [soapTable, user, Version.faultFields] at hf
        try (first | subst hf; rfl | rcases hf with rfl | rfl <;> rfl | rcases hf with rfl | rfl | rfl <;> rfl)
      | n + 22 => simp [soapTable, user] at hf
    rw [this]; exact .none

theorem partners : Partners R world service ExC.world (ExC.world.disp 0).service where
  depth := rfl
  read := rfl
  write := rfl
  version := rfl
  sane := ⟨sane, ExC.sane⟩
  classes := by
    rintro c c' (⟨rfl, rfl⟩ | ⟨rfl, rfl⟩)
    all_goals
      refine ⟨.cons ?_ .nil, rfl, rfl, rfl, rfl⟩
      exact ⟨rfl, nofun, rfl, nofun, .simple (fun _ => rfl) (fun _ => rfl) (fun _ => rfl) (Iff.refl _), rfl, ⟨_, rfl, rfl⟩,
        rfl, rfl, rfl, rfl⟩
  roots := by
    rintro c c' (⟨rfl, rfl⟩ | ⟨rfl, rfl⟩) <;> exact ⟨by decide, by decide⟩
  unambiguous := by
    rintro c c' (⟨rfl, rfl⟩ | ⟨rfl, rfl⟩)
    all_goals
      refine ⟨fun n => ?_, ExC.unambiguous _ (by simp)⟩
      match n with
      | 0 => exact .nil
      | n + 1 => exact .cons (by simp) .nil

def call : Val := .inst 20 [(py"who", .atom (.str py"Bob"))] none

theorem survives : Survives (world.table service) 10 (.complex 20) call := by
  refine .inst rfl rfl (partners.unambiguous 20 8 (.inl ⟨rfl, rfl⟩)).1 (i := _) rfl rfl ?_
  intro f v hf hv
  simp only [World.table, world, soapTable, user, List.mem_cons, List.not_mem_nil, or_false] at hf
  subst hf
  injection hv with hv; subst hv
  exact .element rfl (by simp) (C25_strings _ _ _ _ (by decide) rfl)

/-- What the server's method gets has one field, `name`. -/
theorem asked (p : Val) (h : ValPair R (world.table service) (ExC.world.table (ExC.world.disp 0).service) call p) :
    p.Same ExC.call := by
  cases h with
  | @inst _ c' _ fs' _ x' hr h1 h2 h3 =>
    rcases hr with ⟨_, rfl⟩ | ⟨h, _⟩
    · match fs', h2, h3 with
      | [(n, v)], h2, .cons hv .nil =>
        cases hv
        simp only [List.map_cons, List.map_nil] at h2
        have : n = py"name" := by simpa [World.table, ExC.world, soapTable, ExC.user] using h2
        subst this
        rfl
    · cases h

/-- The client calls its operation 'Hello' with a `Question` and gets an `Answer`. -/
example : ∃ p w, ValPair R (world.table service) (ExC.world.table (ExC.world.disp 0).service) call p ∧
    ValPair R (world.table service) (ExC.world.table (ExC.world.disp 0).service) w (ExC.greet p) ∧
    stubCall world service (fun hs content => served ExC.world 0 {} (ExC.environ hs) content) py"Hello" call
      Val.none = .ok (mkResponse (.val w)) := by
  refine C103_call world service ExC.world 0 partners 0 0 py"Hello" py"sayHello" py"sayHelloResponse" 20 21 8 9
    (.inl ⟨rfl, rfl⟩) (.inr ⟨rfl, rfl⟩) ⟨⟨[], [], rfl, rfl, by simp⟩, rfl, rfl, _, rfl, rfl⟩ ExC.serves ExC.greet rfl {} ExC.environ
    (fun _ => rfl) (.input (fun a h => ?_) ⟨[], [], rfl, rfl, by simp⟩) call (ExC.env [ExC.bodyDoc ExC.ask]) survives rfl
    ⟨_, rfl, ExC.nest_back (.cons (ExC.nest_back (.cons (ExC.nest_back (.cons (ExC.text_back _ _ _) .nil)) .nil)) .nil)⟩
    (fun _ _ _ _ => rfl) ?_
  · have : Version.determineAction .soap11 (ExC.environ (Version.soap11.requestHeaders py"urn:x/hello")) = none := by
      decide +kernel
    exact absurd (this.symm.trans h.1) (by simp)
  · intro p hp
    obtain ⟨fs', x', doc', h1, h2, h3, h4⟩ := ExC.greets p (asked p hp)
    exact ⟨doc', by rw [h1]; exact h2, by rw [h1]; exact h3, h4⟩

end ExP

end Soapfish
