import Verif.ComplexLemmas
/-
What a greater recursion limit changes (C115).
-/
namespace Soapfish

/-- The same result or the same exception, unless the first one is RecursionError. -/
def UnlessTooDeep {α : Type} (a b : Except Exn α) : Prop := a = .error .recursionError ∨ a = b

namespace UnlessTooDeep

theorem refl {α : Type} (a : Except Exn α) : UnlessTooDeep a a := .inr rfl

theorem bind {α β : Type} {a b : Except Exn α} {f g : α → Except Exn β} (h : UnlessTooDeep a b)
    (hf : ∀ x, UnlessTooDeep (f x) (g x)) : UnlessTooDeep (a >>= f) (b >>= g) := by
  rcases h with rfl | rfl
  · exact .inl rfl
  · cases a with
    | error e => exact .inr rfl
    | ok x => exact hf x

theorem map {α β : Type} {a b : Except Exn α} (f : α → β) (h : UnlessTooDeep a b) :
    UnlessTooDeep (a.map f) (b.map f) := by
  rcases h with rfl | rfl
  · exact .inl rfl
  · exact .inr rfl

theorem mapE {α β : Type} {f g : α → Except Exn β} (h : ∀ x, UnlessTooDeep (f x) (g x)) :
    ∀ l, UnlessTooDeep (Soapfish.mapE f l) (Soapfish.mapE g l)
  | [] => .inr rfl
  | x :: l => .bind (h x) fun _ => .bind (mapE h l) fun _ => refl _

theorem foldE {α σ : Type} {f g : σ → α → Except Exn σ} (h : ∀ s x, UnlessTooDeep (f s x) (g s x)) :
    ∀ l s, UnlessTooDeep (Soapfish.foldE f s l) (Soapfish.foldE g s l)
  | [], _ => .inr rfl
  | x :: l, s => .bind (h s x) fun _ => foldE h l _

end UnlessTooDeep

open UnlessTooDeep (refl)

section
variable {T : Table} {nw nw' : ClsId → Except Exn Val} (hn : ∀ c, UnlessTooDeep (nw c) (nw' c))
include hn

theorem evaluate_deeper (t : FType) : UnlessTooDeep (evaluate nw t) (evaluate nw' t) := by
  cases t with
  | complex c => exact (hn c).map _
  | _ => exact refl _

theorem accept_deeper (f : Field) (v : Val) : UnlessTooDeep (f.accept T nw v) (f.accept T nw' v) := by
  unfold Field.accept
  split
  · exact refl _
  · exact .bind (evaluate_deeper hn _) fun _ => refl _

theorem emptyValue_deeper (f : Field) : UnlessTooDeep (emptyValue nw f) (emptyValue nw' f) := by
  unfold emptyValue
  split <;> try exact refl _
  split
  · exact hn _
  · exact refl _

theorem setAttr_deeper (v : Val) (n : Str) (w : Val) : UnlessTooDeep (setAttr T nw v n w) (setAttr T nw' v n w) := by
  unfold setAttr
  split
  · exact .bind (refl _) fun f => .bind (accept_deeper hn f w) fun _ => refl _
  · exact refl _

theorem typedAppend_deeper (f : Field) (is : List Val) (v : Val) :
    UnlessTooDeep (typedAppend T nw f is v) (typedAppend T nw' f is v) :=
  .bind (evaluate_deeper hn _) fun _ => refl _

theorem appendAttr_deeper (f : Field) (i v : Val) : UnlessTooDeep (appendAttr T nw f i v) (appendAttr T nw' f i v) := by
  unfold appendAttr
  split <;> try exact refl _
  split <;> try exact refl _
  exact .bind (typedAppend_deeper hn f _ v) fun _ => refl _

theorem parseAttr_deeper (f : Field) (i : Val) (x : Xml) : UnlessTooDeep (parseAttr T nw f i x) (parseAttr T nw' f i x) :=
  .bind (evaluate_deeper hn _) fun _ => .bind (refl _) fun _ => setAttr_deeper hn _ _ _

variable {pc pc' : ParseCls} (hp : ∀ c x, UnlessTooDeep (pc c x) (pc' c x))
include hp

omit hn in
theorem parseType_deeper (t : FType) (x : Xml) : UnlessTooDeep (parseType pc t x) (parseType pc' t x) := by
  cases t with
  | complex c => exact hp c x
  | _ => exact refl _

theorem parseElement_deeper (f : Field) (i : Val) (x : Xml) :
    UnlessTooDeep (parseElement T nw pc f i x) (parseElement T nw' pc' f i x) := by
  refine .bind (evaluate_deeper hn _) fun _ => .bind ?_ fun _ => setAttr_deeper hn _ _ _
  split
  · exact refl _
  · exact parseType_deeper hp _ _

theorem parseItem_deeper (f : Field) (i : Val) (x : Xml) :
    UnlessTooDeep (parseItem T nw pc f i x) (parseItem T nw' pc' f i x) := by
  refine .bind (evaluate_deeper hn _) fun _ => .bind ?_ fun _ => appendAttr_deeper hn _ _ _
  split
  · exact refl _
  · exact parseType_deeper hp _ _

theorem parseOne_deeper (f : Field) (i : Val) (x : Xml) :
    UnlessTooDeep (parseOne T nw pc f i x) (parseOne T nw' pc' f i x) := by
  unfold parseOne
  split
  · exact parseItem_deeper hn hp _ _ _
  · exact parseElement_deeper hn hp _ _ _

theorem parseSeq_deeper (x : Xml) (i : Val) (f : Field) :
    UnlessTooDeep (parseSeq T nw pc x i f) (parseSeq T nw' pc' x i f) :=
  .bind (refl _) fun _ => .foldE (fun _ _ => parseOne_deeper hn hp _ _ _) _ _

theorem parseChoice_deeper (x : Xml) (i : Val) : ∀ fs,
    UnlessTooDeep (parseChoice T nw pc x i fs) (parseChoice T nw' pc' x i fs)
  | [] => refl _
  | f :: fs => by
    cases x with
    | elem q a t k =>
      simp only [parseChoice]
      split
      · exact parseOne_deeper hn hp _ _ _
      · exact parseChoice_deeper _ i fs
    | comment => exact parseChoice_deeper _ i fs
    | pi => exact refl _

end

/-- **C115 (instances).** With a greater recursion limit, a class called without arguments gives the same, or the same
exception, unless the exception was RecursionError. -/
theorem C115_new (T : Table) : ∀ (n m : Nat), n ≤ m → ∀ c, UnlessTooDeep (newInst T n c) (newInst T m c)
  | 0, _, _, _ => .inl rfl
  | n + 1, 0, h, _ => by omega
  | n + 1, m + 1, h, c => by
    have ih := C115_new T n m (by omega)
    exact .bind (.mapE (fun f => .bind (emptyValue_deeper ih f) fun v => .bind (accept_deeper ih f v) fun _ => refl _) _) fun _ => refl _

/-- **C115 (constructors).** The same for a class called with arguments. -/
theorem C115_construct (T : Table) (n m : Nat) (h : n ≤ m) (c : ClsId) (kwargs : List (Str × Val)) :
    UnlessTooDeep (construct T n c kwargs) (construct T m c kwargs) :=
  .bind (C115_new T n m h c) fun _ => .foldE (fun _ _ => setAttr_deeper (C115_new T n m h) _ _ _) _ _

/-- **C115 (reading).** The same for reading a document. -/
theorem C115_read (T : Table) (N N' : Nat) (hN : N ≤ N') : ∀ (n m : Nat), n ≤ m → ∀ c x,
    UnlessTooDeep (parseCls T N n c x) (parseCls T N' m c x)
  | 0, _, _, _, _ => .inl rfl
  | n + 1, 0, h, _, _ => by omega
  | n + 1, m + 1, h, c, x => by
    have hn := C115_new T N N' hN
    have ih := C115_read T N N' hN n m (by omega)
    refine .bind (hn c) fun i => .bind (.foldE (fun _ _ => parseAttr_deeper hn _ _ _) _ _) fun i => .bind ?_ fun i =>
      .foldE (fun _ _ => parseElement_deeper hn ih _ _ _) _ _
    split
    · exact parseChoice_deeper hn ih _ _ _
    · exact .foldE (fun _ _ => parseSeq_deeper hn ih _ _ _) _ _

section
variable {T : Table} {rc rc' : RenderCls} (hr : ∀ c v ns q, UnlessTooDeep (rc c v ns q) (rc' c v ns q))
include hr

theorem renderType_deeper (t : FType) (v : Val) (ns : Option Str) (q : Bool) :
    UnlessTooDeep (renderType rc t v ns q) (renderType rc' t v ns q) := by
  cases t with
  | complex c => exact .bind (hr c v ns q) fun _ => refl _
  | _ => exact refl _

theorem renderChild_deeper (f : Field) (loc : Str) (v : Val) (ns : Option Str) (q : Bool) :
    UnlessTooDeep (renderChild rc f loc v ns q) (renderChild rc' f loc v ns q) := by
  unfold renderChild
  simp only
  split
  · exact refl _
  · exact .bind (renderType_deeper hr _ _ _ _) fun _ => refl _

theorem renderNamed_deeper (f : Field) (v : Val) : UnlessTooDeep (renderNamed T rc f v) (renderNamed T rc' f v) := by
  unfold renderNamed
  split <;> try exact refl _
  split <;> try exact refl _
  split <;> try exact refl _
  split <;> try exact refl _
  exact .bind (refl _) fun _ => .bind (hr _ _ _ _) fun _ => refl _

theorem renderRef_deeper (f : Field) (v : Val) (ns : Option Str) (q : Bool) :
    UnlessTooDeep (renderRef T rc f v ns q) (renderRef T rc' f v ns q) := by
  unfold renderRef
  split
  · exact refl _
  · exact .bind (renderType_deeper hr _ _ _ _) fun _ => refl _

theorem renderList_deeper (f : Field) (v : Val) (ns : Option Str) (q : Bool) :
    UnlessTooDeep (renderList rc f v ns q) (renderList rc' f v ns q) :=
  .bind (refl _) fun _ => .bind (refl _) fun _ => .bind (refl _) fun _ =>
    .bind (.mapE (fun _ => renderChild_deeper hr _ _ _ _ _) _) fun _ => refl _

theorem renderField_deeper (f : Field) (v : Val) (ns : Option Str) (q : Bool) :
    UnlessTooDeep (renderField T rc f v ns q) (renderField T rc' f v ns q) := by
  unfold renderField
  split
  · split
    · exact refl _
    · exact .bind (renderChild_deeper hr _ _ _ _ _) fun _ => refl _
  · exact renderNamed_deeper hr _ _
  · exact refl _
  · exact renderRef_deeper hr _ _ _ _
  · exact renderRef_deeper hr _ _ _ _
  · exact renderList_deeper hr _ _ _ _

theorem renderFields_deeper (vals : List (Str × Val)) (ns : Option Str) (q : Bool) : ∀ fs,
    UnlessTooDeep (renderFields T rc vals ns q fs) (renderFields T rc' vals ns q fs)
  | [] => refl _
  | _ :: fs => .bind (refl _) fun _ => .bind (renderField_deeper hr _ _ _ _) fun _ =>
      .bind (renderFields_deeper vals ns q fs) fun _ => refl _

end

theorem renderCls_deeper (T : Table) : ∀ (n m : Nat), n ≤ m → ∀ c v ns q,
    UnlessTooDeep (renderCls T n c v ns q) (renderCls T m c v ns q)
  | 0, _, _, _, _, _, _ => .inl rfl
  | n + 1, 0, h, _, _, _, _ => by omega
  | n + 1, m + 1, h, c, v, ns, q => by
    have ih := renderCls_deeper T n m (by omega)
    cases v with
    | inst c' vals x =>
      simp only [renderCls]
      split
      · exact refl _
      · exact renderFields_deeper ih _ _ _ _
    | atom a => cases a <;> exact refl _
    | _ => exact refl _

/-- **C115 (writing).** The same for writing an object. -/
theorem C115_write (T : Table) (n m : Nat) (h : n ≤ m) (v : Val) (tag : Str) (ns : Option Str) (q : Bool) :
    UnlessTooDeep (toXml T n v tag ns q) (toXml T m v tag ns q) := by
  unfold toXml
  split
  · exact .bind (renderCls_deeper T n m h _ _ _ _) fun _ => refl _
  · exact refl _

/-! ### Examples -/

namespace ExDepth

/-- An order with an item, which has a size. -/
def table : Table
  | 1 => { name := py"Order", mro := [1], fields := [{ name := py"item", kind := .element, type := .complex 2 }] }
  | _ => { name := py"Item", mro := [2], fields := [{ name := py"size", kind := .element, type := .simple (.string {}) }] }

def item : Xml := .elem ⟨none, py"item"⟩ [] none [.elem ⟨none, py"size"⟩ [] (some py"M") []]
def order : Xml := .elem ⟨none, py"order"⟩ [] none [item]
def orderVal : Val := .inst 1 [(py"item", .inst 2 [(py"size", .atom (.str py"M"))] (some item))] (some order)

/-- Too deep for one level, read with two levels, and so with any greater number. -/
example : newInst table 1 1 = .error .recursionError ∧ parseCls table 2 1 1 order = .error .recursionError ∧
    parseCls table 2 2 1 order = .ok orderVal ∧ toXml table 1 orderVal py"order" none false = .error .recursionError ∧
    ∀ m, 2 ≤ m → parseCls table m m 1 order = .ok orderVal ∧ toXml table m orderVal py"order" none false = .ok order := by
  refine ⟨rfl, rfl, rfl, rfl, fun m hm => ⟨?_, ?_⟩⟩
  · rcases C115_read table 2 m hm 2 m hm 1 order with h | h
    · cases h
    · exact h.symm
  · rcases C115_write table 2 m hm orderVal py"order" none false with h | h
    · cases h
    · exact h.symm

end ExDepth
end Soapfish
