import Mathlib.Combinatorics.Pigeonhole
import Verif.Props.Files
import Verif.Props.Numerals
/-!
C129: what happens when two namespaces give the same name of a variable in generated code.
-/
namespace Soapfish
open Spec

/-- The schemas that the schema object `g` imports are told apart by the digests of the namespaces only. -/
def ImportsByDigest (digest : Str → Str) (d : DFile) (g : GSchema) : Prop :=
  ∃ seen : Str → Str × Option Str,
    All2 (fun o i => ∃ ns, o = some ns ∧ i = seen (digest ns)) d.schema.imports g.imports

/-- The digits of `hashlib.md5(…).hexdigest()`. -/
def hexDigits : List Char := py"0123456789abcdef"

/-- Five digits of a hexadecimal number. -/
def FiveHex (s : Str) : Prop := s.length = 5 ∧ ∀ c ∈ s, c ∈ hexDigits

section
variable {wd : Str} {urljoin : Str → Str → Str} {netlocOk : Str → Bool} {digest : Str → Str} {read : Str → Except Exn DFile}
  {base : Str} {b : List Str} {files : List Str → Option DFile} {root : DFile}

theorem imports_by_digest {limit : Nat} {vars : SchemaVars} {env : PyEnv} {c : FileCode} {z} (hz : execFile limit vars env c = .ok z)
    {par : Option Str} {b dir : List Str} {d : DFile} (hc : CodeFor digest par b dir d c) : ImportsByDigest digest d z.2.2 := by
  obtain ⟨is, js, k1, _, _, k4, _⟩ := execFile_ok hz
  refine ⟨fun t => match schemaVar vars (py"Schema_" ++ t) with | .ok s => s | .error _ => ([], none), ?_⟩
  rw [k4]
  refine (hc.imports.comp (mapI_inv k1)).imp_mem fun o _ s _ hos => ?_
  obtain ⟨v, ⟨ns, rfl, rfl⟩, hs⟩ := hos
  refine ⟨ns, rfl, ?_⟩
  simp only [varFor] at hs
  simp only [hs]

theorem files_by_digest {limit : Nat} {l : List (List Str)} {m : List FileCode} (hl : All2 (DocCode digest files b) l m) :
    ∀ {vars : SchemaVars} {env : PyEnv} {z}, execFiles limit vars env m = .ok z →
      All2 (fun f g => ∃ d, files f = some d ∧ ImportsByDigest digest d g) l z.2.2 := by
  induction hl with
  | nil =>
    intro vars env z hz
    simp only [execFiles] at hz
    injection hz with hz; subst hz
    exact .nil
  | @cons f c l m hfc _ ih =>
    intro vars env z hz
    simp only [execFiles] at hz
    obtain ⟨r1, hr1, hz⟩ := bindI hz
    obtain ⟨s1, hs1, hz⟩ := bindI hz
    injection hz with hz; subst hz
    obtain ⟨d, loc, u, hd, hcode, _⟩ := hfc
    exact .cons ⟨d, hd, imports_by_digest hr1 hcode⟩ (ih hs1)

/-- C129: in a module that is generated for several documents, and can be imported, the schemas that a schema imports are
told apart by five digits only: namespaces with the same digits stand for the same schema. -/
theorem C129_digits (hw : Documents base b read files root) (n : Nat) (parent : Option Str) (r)
    (h : filesCode wd urljoin netlocOk digest read base n parent base [] [] [] root = .ok r) (limit : Nat) (x)
    (hx : execFiles limit [] [] r.1 = .ok x) :
    ∃ (L : List (List Str)) (gs : List GSchema) (g0 : GSchema), x.2.2 = gs ++ [g0] ∧ (∀ f, f ∈ L ↔ Needed files b root f) ∧ L.Nodup ∧
      All2 (fun f g => ∃ d, files f = some d ∧ ImportsByDigest digest d g) L gs ∧ ImportsByDigest digest root g0 := by
  obtain ⟨L, cs, last, e, h2, h3, h4, h5, h6, h7⟩ := C117_code hw n parent r h
  rw [e] at hx
  obtain ⟨y, z, hy, hz, rfl⟩ := execFiles_append hx
  simp only [execFiles] at hz
  obtain ⟨r1, hr1, hz⟩ := bindI hz
  injection hz with hz; subst hz
  exact ⟨L, y.2.2, r1.2.2, rfl, h3, h2, files_by_digest h5 hy, imports_by_digest hr1 h6⟩

theorem all2_index {α β : Type} {R : α → β → Prop} {l : List α} {m : List β} (h : All2 R l m) {a : α} (ha : a ∈ l) :
    ∃ (i : Nat) (x : β), l[i]? = some a ∧ m[i]? = some x ∧ R a x := by
  induction h with
  | nil => cases ha
  | @cons a' x l m hr _ ih =>
    rcases List.mem_cons.mp ha with rfl | ha
    · exact ⟨0, x, rfl, rfl, hr⟩
    · obtain ⟨i, x, h1, h2, h3⟩ := ih ha
      exact ⟨i + 1, x, h1, h2, h3⟩

/-- C129: so if a document imports two namespaces with the same digits, the namespaces of the schemas that its schema object
imports are not those that the document says. -/
theorem C129_lost {d : DFile} {g : GSchema} (h : ImportsByDigest digest d g) (s t : Str) (hs : some s ∈ d.schema.imports)
    (ht : some t ∈ d.schema.imports) (hne : s ≠ t) (hd : digest s = digest t) :
    d.schema.imports ≠ g.imports.map fun i => some i.1 := by
  intro he
  obtain ⟨seen, hall⟩ := h
  obtain ⟨i, x, h1, h2, ns, e1, e2⟩ := all2_index hall hs
  obtain ⟨j, y, h3, h4, ns', e3, e4⟩ := all2_index hall ht
  injection e1 with e1
  injection e3 with e3
  subst e1; subst e3
  rw [he] at h1 h3
  simp only [List.getElem?_map, h2, h4, Option.map_some, Option.some.injEq] at h1 h3
  rw [e2] at h1
  rw [e4, ← hd] at h3
  exact hne (h1.symm.trans h3)

/-- Texts of five hexadecimal digits, by number. -/
theorem fiveHex_index {s : Str} (h : FiveHex s) : s ∈ (List.replicate 5 hexDigits).foldr
    (fun ds acc => ds.flatMap fun c => acc.map (c :: ·)) [[]] := by
  obtain ⟨hl, hc⟩ := h
  have key : ∀ (n : Nat) (s : Str), s.length = n → (∀ c ∈ s, c ∈ hexDigits) → s ∈ (List.replicate n hexDigits).foldr
      (fun ds acc => ds.flatMap fun c => acc.map (c :: ·)) [[]] := by
    intro n
    induction n with
    | zero => intro s hl _; rw [List.length_eq_zero_iff.mp hl]; simp
    | succ n ih =>
      intro s hl hc
      cases s with
      | nil => cases hl
      | cons c cs =>
        rw [List.replicate_succ, List.foldr_cons, List.mem_flatMap]
        refine ⟨c, hc c (by simp), List.mem_map.mpr ⟨cs, ih cs (by simpa using hl) fun x hx => hc x (List.mem_cons_of_mem _ hx), rfl⟩⟩
  exact key 5 s hl hc

theorem fiveHex_count (n : Nat) : ((List.replicate n hexDigits).foldr
    (fun ds acc => ds.flatMap fun c => acc.map (c :: ·)) [[]]).length = 16 ^ n := by
  induction n with
  | zero => rfl
  | succ n ih =>
    rw [List.replicate_succ, List.foldr_cons, List.length_flatMap]
    simp only [List.length_map, ih]
    rw [show hexDigits.map (fun _ => 16 ^ n) = List.replicate 16 (16 ^ n) by rfl, List.sum_replicate]
    simp [pow_succ, Nat.mul_comm]

/-- C129: whatever the digits are taken from, among more than 16^5 = 1048576 different namespaces there are two with the same
digits. -/
theorem C129_exist (hd : ∀ t, FiveHex (digest t)) (names : List Str) (hn : names.Nodup) (hl : 16 ^ 5 < names.length) :
    ∃ s ∈ names, ∃ t ∈ names, s ≠ t ∧ digest s = digest t := by
  classical
  have := Finset.exists_ne_map_eq_of_card_lt_of_maps_to (s := names.toFinset) (f := digest)
    (t := ((List.replicate 5 hexDigits).foldr (fun ds acc => ds.flatMap fun c => acc.map (c :: ·)) [[]]).toFinset) ?_ ?_
  · obtain ⟨s, hs, t, ht, hne, he⟩ := this
    exact ⟨s, by simpa using hs, t, by simpa using ht, hne, he⟩
  · rw [List.toFinset_card_of_nodup hn]
    exact lt_of_le_of_lt ((List.toFinset_card_le _).trans_eq (fiveHex_count 5)) hl
  · intro s _
    exact List.mem_toFinset.mpr (fiveHex_index (hd s))

/-- C129: hence no choice of digits is safe: there are two namespaces such that no document that imports both gets a
schema object with the imports it says, whatever documents the two come from. -/
theorem C129_always (hd : ∀ t, FiveHex (digest t)) :
    ∃ s t : Str, s ≠ t ∧ ∀ {wd base : Str} {b : List Str} {urljoin : Str → Str → Str} {netlocOk : Str → Bool}
      {read : Str → Except Exn DFile} {files : List Str → Option DFile} {root : DFile}, Documents base b read files root →
      some s ∈ root.schema.imports → some t ∈ root.schema.imports → ∀ (n : Nat) (parent : Option Str) (r),
      filesCode wd urljoin netlocOk digest read base n parent base [] [] [] root = .ok r → ∀ (limit : Nat) (x),
      execFiles limit [] [] r.1 = .ok x →
      ∃ gs g0, x.2.2 = gs ++ [g0] ∧ root.schema.imports ≠ g0.imports.map fun i => some i.1 := by
  have hinj : Function.Injective fun n : Nat => py"urn:" ++ natStr n := by
    intro i j h
    have h := List.append_cancel_left h
    have := congrArg figures h
    rwa [figures_natStr, figures_natStr] at this
  obtain ⟨s, _, t, _, hne, he⟩ := C129_exist hd ((List.range (16 ^ 5 + 1)).map fun n => py"urn:" ++ natStr n)
    (List.nodup_range.map hinj) (by rw [List.length_map, List.length_range]; exact Nat.lt_succ_self _)
  refine ⟨s, t, hne, ?_⟩
  intro wd base b urljoin netlocOk read files root hw hs ht n parent r h limit x hx
  obtain ⟨_, gs, g0, e, _, _, _, h0⟩ := C129_digits hw n parent r h limit x hx
  exact ⟨gs, g0, e, C129_lost h0 s t hs ht hne he⟩

end

namespace ExCollisions

/-- Two of three namespaces have the same digits. -/
def md5 (t : Str) : Str := if t = py"urn:a" then py"aaaaa" else if t = py"urn:b" ∨ t = py"urn:c" then py"bbbbb" else py"0" ++ (t.take 1 ++ py"000")

def a : DFile := { prefixes := [some py"xs"], schema := { targetNamespace := some py"urn:a", imports := [some py"urn:b", some py"urn:c"] }, importLocations := [some py"b.xsd", some py"c.xsd"] }
def b : DFile := { prefixes := [some py"xs"], schema := { targetNamespace := some py"urn:b" } }
def c : DFile := { prefixes := [some py"xs"], schema := { targetNamespace := some py"urn:c" } }

def read (p : Str) : Except Exn DFile :=
  if normPath p = py"/w/c.xsd" then .ok c else if normPath p = py"/w/b.xsd" then .ok b else .error (.user 0)

/-- The module can be imported, but the schema of a.xsd imports that of c.xsd twice. -/
example : (match (filesCode py"/" (fun _ l => l) (fun _ => true) md5 read py"/w" 7 none py"/w" [] [] [] a).map (·.1) with
    | .ok l => (match execFiles 10 [] [] l with
      | .ok x => x.2.2.map fun g => (g.targetNamespace, g.imports.map (·.1))
      | .error _ => [])
    | .error _ => []) =
    [(py"urn:b", []), (py"urn:c", []), (py"urn:a", [py"urn:c", py"urn:c"])] := by decide +kernel

end ExCollisions

end Soapfish
