import Mathlib.Analysis.SpecialFunctions.Pow.Real

/-!
# Tensors

Model of the part of PyTorch used by `/repo/src/tad_dftd4`.

A tensor is a triple `(err, shape, get)`:

* `shape` lists the dimensions **innermost (last) axis first**, so that PyTorch's
  right-aligned broadcasting is alignment of lists from the head;
* `get` returns the entry at an index (also innermost axis first); only indices
  that are in bounds (`InB`) are meaningful;
* `err` is the Python exception raised while the tensor was computed.  It
  propagates through every operation (first raised, first reported).
-/

open scoped Classical

namespace TadDftd4

/-- Python exception classes raised by the modelled code
(e.g. `dispersion/base.py:355, 395`, `model/d4s.py:255`, `loader.py:96`). -/
inductive Err
  | value | type | runtime | index | key | assertion | notImplemented | fileNotFound | attribute
  deriving DecidableEq, Repr

/-- `torch.Size`, e.g. `dispersion/base.py:354` -/
abbrev Shape := List ℕ
/-- Index of a tensor entry -/
abbrev Idx := List ℕ

/-- Combination of exceptions: the first one is reported (Python semantics). -/
def orErr : Option Err → Option Err → Option Err
  | some e, _ => some e
  | none, e => e

@[simp] theorem orErr_none_left (e : Option Err) : orErr none e = e := rfl
@[simp] theorem orErr_some_left (a : Err) (e : Option Err) : orErr (some a) e = some a := rfl
@[simp] theorem orErr_none_right (e : Option Err) : orErr e none = e := by cases e <;> rfl
theorem orErr_eq_none {a b : Option Err} : orErr a b = none ↔ a = none ∧ b = none := by
  cases a <;> simp [orErr]

/-! ## Broadcasting -/

/-- Resulting size of one axis under broadcasting (PyTorch; e.g. `twobody.py:147`). -/
def bdim (a b : ℕ) : ℕ := if a = 1 then b else a

/-- Two sizes of one axis can be broadcast (PyTorch; e.g. `twobody.py:147`). -/
def dimOk (a b : ℕ) : Prop := a = b ∨ a = 1 ∨ b = 1

/-- Shape after broadcasting; PyTorch; e.g. `twobody.py:147` -/
def bshape : Shape → Shape → Shape
  | [], t => t
  | s, [] => s
  | a :: s, b :: t => bdim a b :: bshape s t

/-- The shapes can be broadcast; PyTorch; e.g. `twobody.py:147` -/
def bcompat : Shape → Shape → Prop
  | [], _ => True
  | _, [] => True
  | a :: s, b :: t => dimOk a b ∧ bcompat s t

/-- Entry of an operand of shape `s` that is read for index `i` of the broadcast result
(PyTorch; e.g. `twobody.py:147`). -/
def pick : Shape → Idx → Idx
  | [], _ => []
  | _ :: s, [] => 0 :: pick s []
  | d :: s, k :: i => (if d = 1 then 0 else k) :: pick s i

/-- Index in bounds (PyTorch). -/
def InB : Shape → Idx → Prop
  | [], [] => True
  | d :: s, k :: i => k < d ∧ InB s i
  | _, _ => False

/-- The error of combining two shapes (RuntimeError of PyTorch; e.g. `twobody.py:147`). -/
noncomputable def bErr (s t : Shape) : Option Err :=
  if bcompat s t then none else some .runtime

@[simp] theorem bdim_one_left (b : ℕ) : bdim 1 b = b := by simp [bdim]
@[simp] theorem bdim_one_right (a : ℕ) : bdim a 1 = a := by
  unfold bdim; split <;> simp_all
@[simp] theorem bdim_self (a : ℕ) : bdim a a = a := by simp [bdim]
@[simp] theorem dimOk_self (a : ℕ) : dimOk a a := Or.inl rfl
@[simp] theorem dimOk_one_left (a : ℕ) : dimOk 1 a := Or.inr (Or.inl rfl)
@[simp] theorem dimOk_one_right (a : ℕ) : dimOk a 1 := Or.inr (Or.inr rfl)

@[simp] theorem bshape_nil_left (t : Shape) : bshape [] t = t := by cases t <;> rfl
@[simp] theorem bshape_nil_right (s : Shape) : bshape s [] = s := by cases s <;> rfl
@[simp] theorem bshape_cons (a b : ℕ) (s t : Shape) :
    bshape (a :: s) (b :: t) = bdim a b :: bshape s t := rfl
@[simp] theorem bshape_self (s : Shape) : bshape s s = s := by
  induction s with
  | nil => rfl
  | cons a s ih => simp [ih]

@[simp] theorem bcompat_nil_left (t : Shape) : bcompat [] t := by cases t <;> trivial
@[simp] theorem bcompat_nil_right (s : Shape) : bcompat s [] := by cases s <;> trivial
@[simp] theorem bcompat_cons (a b : ℕ) (s t : Shape) :
    bcompat (a :: s) (b :: t) ↔ dimOk a b ∧ bcompat s t := Iff.rfl
@[simp] theorem bcompat_self (s : Shape) : bcompat s s := by
  induction s with
  | nil => trivial
  | cons a s ih => simp [ih]

theorem bErr_eq_none {s t : Shape} : bErr s t = none ↔ bcompat s t := by
  unfold bErr; split <;> simp_all

@[simp] theorem bErr_nil_left (t : Shape) : bErr [] t = none := by simp [bErr]
@[simp] theorem bErr_nil_right (t : Shape) : bErr t [] = none := by simp [bErr]
@[simp] theorem bErr_self (t : Shape) : bErr t t = none := by simp [bErr]

@[simp] theorem pick_nil (i : Idx) : pick [] i = [] := by cases i <;> rfl
@[simp] theorem pick_one (s : Shape) (k : ℕ) (i : Idx) :
    pick (1 :: s) (k :: i) = 0 :: pick s i := by simp [pick]
theorem pick_cons_lt {d k : ℕ} (h : k < d) (s : Shape) (i : Idx) :
    pick (d :: s) (k :: i) = k :: pick s i := by
  simp only [pick]
  split
  · subst d; simp; omega
  · rfl
@[simp] theorem pick_zero (d : ℕ) (s : Shape) (i : Idx) :
    pick (d :: s) (0 :: i) = 0 :: pick s i := by simp [pick]

theorem InB_nil : InB [] [] := trivial
@[simp] theorem InB_cons {d k : ℕ} {s : Shape} {i : Idx} :
    InB (d :: s) (k :: i) ↔ k < d ∧ InB s i := Iff.rfl

theorem pick_of_InB {s : Shape} {i : Idx} (h : InB s i) : pick s i = i := by
  induction s generalizing i with
  | nil => cases i with
    | nil => rfl
    | cons => exact h.elim
  | cons d s ih => cases i with
    | nil => exact h.elim
    | cons k i =>
      rw [pick_cons_lt h.1, ih h.2]

theorem InB_cases {d : ℕ} {s : Shape} {i : Idx} (h : InB (d :: s) i) :
    ∃ k j, i = k :: j ∧ k < d ∧ InB s j := by
  cases i with
  | nil => exact h.elim
  | cons k j => exact ⟨k, j, rfl, h.1, h.2⟩

/-! ## Tensors and element-wise operations -/

/-- `torch.Tensor`, see above -/
structure Tensor (α : Type) where
  err : Option Err
  shape : Shape
  get : Idx → α

namespace Tensor

variable {α β γ δ : Type}

/-- 0-dimensional tensor, `torch.tensor(c)` (`twobody.py:135`). -/
def scalar (c : α) : Tensor α := ⟨none, [], fun _ => c⟩

/-- `torch.full(shape, c)`, `torch.zeros(shape)` (`model/d4.py:138`, `d4s.py:329`). -/
def full (s : Shape) (c : α) : Tensor α := ⟨none, s, fun _ => c⟩

/-- A tensor that could not be computed (Python semantics). -/
def fail [Inhabited α] (e : Err) : Tensor α := ⟨some e, [], fun _ => default⟩

/-- Element-wise operation; e.g. `torch.sqrt`, `damping/functions.py:304` -/
def map (f : α → β) (x : Tensor α) : Tensor β := ⟨x.err, x.shape, fun i => f (x.get i)⟩

/-- Element-wise binary operation with broadcasting (e.g. `twobody.py:147-148`). -/
noncomputable def map2 (f : α → β → γ) (x : Tensor α) (y : Tensor β) : Tensor γ where
  err := orErr (orErr x.err y.err) (bErr x.shape y.shape)
  shape := bshape x.shape y.shape
  get i := f (x.get (pick x.shape i)) (y.get (pick y.shape i))

/-- `torch.where(c, x, y)` (e.g. `twobody.py:141`). -/
noncomputable def where_ (c : Tensor Prop) (x y : Tensor α) : Tensor α where
  err := orErr (orErr c.err (orErr x.err y.err))
    (orErr (bErr c.shape x.shape) (bErr (bshape c.shape x.shape) y.shape))
  shape := bshape (bshape c.shape x.shape) y.shape
  get i := if c.get (pick c.shape i) then x.get (pick x.shape i) else y.get (pick y.shape i)

noncomputable instance : Add (Tensor ℝ) := ⟨map2 (· + ·)⟩
noncomputable instance : Sub (Tensor ℝ) := ⟨map2 (· - ·)⟩
noncomputable instance : Mul (Tensor ℝ) := ⟨map2 (· * ·)⟩
noncomputable instance : Div (Tensor ℝ) := ⟨map2 (· / ·)⟩
noncomputable instance : Neg (Tensor ℝ) := ⟨map (- ·)⟩

/-- `x <= y` (`twobody.py:160`). -/
noncomputable def le (x y : Tensor ℝ) : Tensor Prop := map2 (· ≤ ·) x y
/-- `x > c` for a Python number `c` (`model/base.py:332`, `d4.py:160`). -/
noncomputable def gtc (x : Tensor ℝ) (c : ℝ) : Tensor Prop := map (fun a => c < a) x
/-- product of boolean tensors (`twobody.py:160`). -/
noncomputable def and (x y : Tensor Prop) : Tensor Prop := map2 (· ∧ ·) x y

/-- Insert into a list at position `p` (auxiliary for `unsqueeze`). -/
def insAt (a : ℕ) : ℕ → List ℕ → List ℕ
  | 0, l => a :: l
  | _ + 1, [] => [a]
  | p + 1, x :: l => x :: insAt a p l

/-- Delete the list element at position `p` (auxiliary for `unsqueeze`). -/
def delAt : ℕ → List ℕ → List ℕ
  | _, [] => []
  | 0, _ :: l => l
  | p + 1, x :: l => x :: delAt p l

@[simp] theorem insAt_zero (a : ℕ) (l : List ℕ) : insAt a 0 l = a :: l := by cases l <;> rfl
@[simp] theorem insAt_succ (a p x : ℕ) (l : List ℕ) :
    insAt a (p + 1) (x :: l) = x :: insAt a p l := rfl
@[simp] theorem insAt_one (a x : ℕ) (l : List ℕ) : insAt a 1 (x :: l) = x :: a :: l := by
  simp [insAt]
@[simp] theorem insAt_two (a x y : ℕ) (l : List ℕ) :
    insAt a 2 (x :: y :: l) = x :: y :: a :: l := by simp [insAt]
@[simp] theorem delAt_zero (x : ℕ) (l : List ℕ) : delAt 0 (x :: l) = l := rfl
@[simp] theorem delAt_succ (p x : ℕ) (l : List ℕ) :
    delAt (p + 1) (x :: l) = x :: delAt p l := rfl
@[simp] theorem delAt_one (x y : ℕ) (l : List ℕ) : delAt 1 (x :: y :: l) = x :: l := rfl
@[simp] theorem delAt_two (x y z : ℕ) (l : List ℕ) :
    delAt 2 (x :: y :: z :: l) = x :: y :: l := rfl

/-- `x.unsqueeze(-(p+1))`; IndexError if the axis is out of range
(`twobody.py:147`, `threebody.py:106-108`). -/
def unsqueeze (p : ℕ) (x : Tensor α) : Tensor α where
  err := orErr x.err (if p ≤ x.shape.length then none else some .index)
  shape := insAt 1 p x.shape
  get i := x.get (delAt p i)

/-- `torch.sum(x, dim=-1)` (`twobody.py:174-175`). -/
noncomputable def sumLast (x : Tensor ℝ) : Tensor ℝ where
  err := x.err
  shape := x.shape.tail
  get i := match x.shape with
    | [] => x.get i
    | d :: _ => ∑ k ∈ Finset.range d, x.get (k :: i)

/-- `torch.sum(x, dim=-1, keepdim=True)` (`model/d4.py:202`). -/
noncomputable def sumLastKeep (x : Tensor ℝ) : Tensor ℝ where
  err := x.err
  shape := match x.shape with
    | [] => []
    | _ :: s => 1 :: s
  get i := match x.shape with
    | [] => x.get i
    | d :: _ => ∑ k ∈ Finset.range d, x.get (k :: i.tail)

/-- maximum of `f 0, …, f n` (auxiliary for `maxLastKeep`). -/
noncomputable def maxN (f : ℕ → ℝ) : ℕ → ℝ
  | 0 => f 0
  | n + 1 => max (maxN f n) (f (n + 1))

/-- `torch.max(x, dim=-1, keepdim=True)[0]`; IndexError for an axis of size zero (`model/d4.py:210`). -/
noncomputable def maxLastKeep (x : Tensor ℝ) : Tensor ℝ where
  err := orErr x.err (match x.shape with
    | 0 :: _ => some .index
    | _ => none)
  shape := match x.shape with
    | [] => []
    | _ :: s => 1 :: s
  get i := match x.shape with
    | [] => x.get i
    | d :: _ => maxN (fun k => x.get (k :: i.tail)) (d - 1)

/-- `x.expand(*shape)`; RuntimeError unless every axis agrees or has size one (`model/d4s.py:171`). -/
noncomputable def expand (s : Shape) (x : Tensor α) : Tensor α where
  err := orErr x.err (if bcompat x.shape s ∧ bshape x.shape s = s then none else some .runtime)
  shape := s
  get i := x.get (pick x.shape i)

/-- All entries of an index tensor are smaller than `N` (auxiliary for `gather`). -/
def AllLt (t : Tensor ℕ) (N : ℕ) : Prop := ∀ i, InB t.shape i → t.get i < N

/-- IndexError of PyTorch; e.g. `dispersion/base.py:273` -/
noncomputable def gatherErr (N : ℕ) (t : Tensor ℕ) : Option Err :=
  orErr t.err (if t.AllLt N then none else some .index)

/-- `table[t]` for a table of `N` entries; IndexError if an index is out of range
(`dispersion/base.py:273`). -/
noncomputable def gather (N : ℕ) (f : ℕ → α) (t : Tensor ℕ) : Tensor α where
  err := gatherErr N t
  shape := t.shape
  get i := f (t.get i)

/-- `table[t]` for a table of shape `(N, R)` (`model/d4.py:154`). -/
noncomputable def gather1 (N R : ℕ) (f : ℕ → ℕ → α) (t : Tensor ℕ) : Tensor α where
  err := gatherErr N t
  shape := R :: t.shape
  get i := f (t.get i.tail) (i.headD 0)

/-- `table[t]` for a table of shape `(N, R, W)` (`model/base.py:383`). -/
noncomputable def gather2 (N R W : ℕ) (f : ℕ → ℕ → ℕ → α) (t : Tensor ℕ) : Tensor α where
  err := gatherErr N t
  shape := W :: R :: t.shape
  get i := f (t.get i.tail.tail) (i.tail.headD 0) (i.headD 0)

/-- `table[t, u]` for a table of shape `(N, N)` and broadcastable index tensors
(`dispersion/base.py:279-281`, `model/d4s.py:65-67`). -/
noncomputable def gatherPair (N : ℕ) (f : ℕ → ℕ → α) (t u : Tensor ℕ) : Tensor α where
  err := orErr (orErr (gatherErr N t) (gatherErr N u))
    (if bcompat t.shape u.shape then none else some .index)
  shape := bshape t.shape u.shape
  get i := f (t.get (pick t.shape i)) (u.get (pick u.shape i))

/-! ### Evaluation rules -/

@[simp] theorem scalar_err (c : α) : (scalar c).err = none := rfl
@[simp] theorem scalar_shape (c : α) : (scalar c).shape = [] := rfl
@[simp] theorem scalar_get (c : α) (i : Idx) : (scalar c).get i = c := rfl
@[simp] theorem full_err (s : Shape) (c : α) : (full s c).err = none := rfl
@[simp] theorem full_shape (s : Shape) (c : α) : (full s c).shape = s := rfl
@[simp] theorem full_get (s : Shape) (c : α) (i : Idx) : (full s c).get i = c := rfl
@[simp] theorem map_err (f : α → β) (x : Tensor α) : (x.map f).err = x.err := rfl
@[simp] theorem map_shape (f : α → β) (x : Tensor α) : (x.map f).shape = x.shape := rfl
@[simp] theorem map_get (f : α → β) (x : Tensor α) (i : Idx) : (x.map f).get i = f (x.get i) := rfl
@[simp] theorem map2_err (f : α → β → γ) (x : Tensor α) (y : Tensor β) :
    (map2 f x y).err = orErr (orErr x.err y.err) (bErr x.shape y.shape) := rfl
@[simp] theorem map2_shape (f : α → β → γ) (x : Tensor α) (y : Tensor β) :
    (map2 f x y).shape = bshape x.shape y.shape := rfl
@[simp] theorem map2_get (f : α → β → γ) (x : Tensor α) (y : Tensor β) (i : Idx) :
    (map2 f x y).get i = f (x.get (pick x.shape i)) (y.get (pick y.shape i)) := rfl
@[simp] theorem where_err (c : Tensor Prop) (x y : Tensor α) :
    (where_ c x y).err = orErr (orErr c.err (orErr x.err y.err))
      (orErr (bErr c.shape x.shape) (bErr (bshape c.shape x.shape) y.shape)) := rfl
@[simp] theorem where_shape (c : Tensor Prop) (x y : Tensor α) :
    (where_ c x y).shape = bshape (bshape c.shape x.shape) y.shape := rfl
theorem where_get (c : Tensor Prop) (x y : Tensor α) (i : Idx) :
    (where_ c x y).get i =
      if c.get (pick c.shape i) then x.get (pick x.shape i) else y.get (pick y.shape i) := rfl
theorem where_get_of_pos {c : Tensor Prop} {x y : Tensor α} {i : Idx}
    (h : c.get (pick c.shape i)) : (where_ c x y).get i = x.get (pick x.shape i) := by
  rw [where_get, if_pos h]
theorem where_get_of_neg {c : Tensor Prop} {x y : Tensor α} {i : Idx}
    (h : ¬ c.get (pick c.shape i)) : (where_ c x y).get i = y.get (pick y.shape i) := by
  rw [where_get, if_neg h]

@[simp] theorem add_err (x y : Tensor ℝ) :
    (x + y).err = orErr (orErr x.err y.err) (bErr x.shape y.shape) := rfl
@[simp] theorem add_shape (x y : Tensor ℝ) : (x + y).shape = bshape x.shape y.shape := rfl
@[simp] theorem add_get (x y : Tensor ℝ) (i : Idx) :
    (x + y).get i = x.get (pick x.shape i) + y.get (pick y.shape i) := rfl
@[simp] theorem sub_err (x y : Tensor ℝ) :
    (x - y).err = orErr (orErr x.err y.err) (bErr x.shape y.shape) := rfl
@[simp] theorem sub_shape (x y : Tensor ℝ) : (x - y).shape = bshape x.shape y.shape := rfl
@[simp] theorem sub_get (x y : Tensor ℝ) (i : Idx) :
    (x - y).get i = x.get (pick x.shape i) - y.get (pick y.shape i) := rfl
@[simp] theorem mul_err (x y : Tensor ℝ) :
    (x * y).err = orErr (orErr x.err y.err) (bErr x.shape y.shape) := rfl
@[simp] theorem mul_shape (x y : Tensor ℝ) : (x * y).shape = bshape x.shape y.shape := rfl
@[simp] theorem mul_get (x y : Tensor ℝ) (i : Idx) :
    (x * y).get i = x.get (pick x.shape i) * y.get (pick y.shape i) := rfl
@[simp] theorem div_err (x y : Tensor ℝ) :
    (x / y).err = orErr (orErr x.err y.err) (bErr x.shape y.shape) := rfl
@[simp] theorem div_shape (x y : Tensor ℝ) : (x / y).shape = bshape x.shape y.shape := rfl
@[simp] theorem div_get (x y : Tensor ℝ) (i : Idx) :
    (x / y).get i = x.get (pick x.shape i) / y.get (pick y.shape i) := rfl
@[simp] theorem neg_err (x : Tensor ℝ) : (-x).err = x.err := rfl
@[simp] theorem neg_shape (x : Tensor ℝ) : (-x).shape = x.shape := rfl
@[simp] theorem neg_get (x : Tensor ℝ) (i : Idx) : (-x).get i = -(x.get i) := rfl

@[simp] theorem le_err (x y : Tensor ℝ) :
    (x.le y).err = orErr (orErr x.err y.err) (bErr x.shape y.shape) := rfl
@[simp] theorem le_shape (x y : Tensor ℝ) : (x.le y).shape = bshape x.shape y.shape := rfl
@[simp] theorem le_get (x y : Tensor ℝ) (i : Idx) :
    (x.le y).get i = (x.get (pick x.shape i) ≤ y.get (pick y.shape i)) := rfl
@[simp] theorem gtc_err (x : Tensor ℝ) (c : ℝ) : (x.gtc c).err = x.err := rfl
@[simp] theorem gtc_shape (x : Tensor ℝ) (c : ℝ) : (x.gtc c).shape = x.shape := rfl
@[simp] theorem gtc_get (x : Tensor ℝ) (c : ℝ) (i : Idx) : (x.gtc c).get i = (c < x.get i) := rfl
@[simp] theorem and_err (x y : Tensor Prop) :
    (x.and y).err = orErr (orErr x.err y.err) (bErr x.shape y.shape) := rfl
@[simp] theorem and_shape (x y : Tensor Prop) : (x.and y).shape = bshape x.shape y.shape := rfl
@[simp] theorem and_get (x y : Tensor Prop) (i : Idx) :
    (x.and y).get i = (x.get (pick x.shape i) ∧ y.get (pick y.shape i)) := rfl

@[simp] theorem unsqueeze_err (p : ℕ) (x : Tensor α) :
    (x.unsqueeze p).err = orErr x.err (if p ≤ x.shape.length then none else some .index) := rfl
@[simp] theorem unsqueeze_shape (p : ℕ) (x : Tensor α) :
    (x.unsqueeze p).shape = insAt 1 p x.shape := rfl
@[simp] theorem unsqueeze_get (p : ℕ) (x : Tensor α) (i : Idx) :
    (x.unsqueeze p).get i = x.get (delAt p i) := rfl

@[simp] theorem sumLast_err (x : Tensor ℝ) : x.sumLast.err = x.err := rfl
@[simp] theorem sumLast_shape (x : Tensor ℝ) : x.sumLast.shape = x.shape.tail := rfl
theorem sumLast_get {x : Tensor ℝ} {d : ℕ} {s : Shape} (h : x.shape = d :: s) (i : Idx) :
    x.sumLast.get i = ∑ k ∈ Finset.range d, x.get (k :: i) := by
  simp [sumLast, h]
@[simp] theorem sumLastKeep_err (x : Tensor ℝ) : x.sumLastKeep.err = x.err := rfl
theorem sumLastKeep_shape {x : Tensor ℝ} {d : ℕ} {s : Shape} (h : x.shape = d :: s) :
    x.sumLastKeep.shape = 1 :: s := by simp [sumLastKeep, h]
theorem sumLastKeep_get {x : Tensor ℝ} {d : ℕ} {s : Shape} (h : x.shape = d :: s) (i : Idx) :
    x.sumLastKeep.get i = ∑ k ∈ Finset.range d, x.get (k :: i.tail) := by
  simp [sumLastKeep, h]
theorem maxLastKeep_err {x : Tensor ℝ} {d : ℕ} {s : Shape} (h : x.shape = (d + 1) :: s) :
    x.maxLastKeep.err = x.err := by simp [maxLastKeep, h]
theorem maxLastKeep_shape {x : Tensor ℝ} {d : ℕ} {s : Shape} (h : x.shape = d :: s) :
    x.maxLastKeep.shape = 1 :: s := by simp [maxLastKeep, h]
theorem maxLastKeep_get {x : Tensor ℝ} {d : ℕ} {s : Shape} (h : x.shape = d :: s) (i : Idx) :
    x.maxLastKeep.get i = maxN (fun k => x.get (k :: i.tail)) (d - 1) := by
  simp [maxLastKeep, h]

@[simp] theorem expand_err (s : Shape) (x : Tensor α) :
    (x.expand s).err = orErr x.err
      (if bcompat x.shape s ∧ bshape x.shape s = s then none else some .runtime) := rfl
@[simp] theorem expand_shape (s : Shape) (x : Tensor α) : (x.expand s).shape = s := rfl
@[simp] theorem expand_get (s : Shape) (x : Tensor α) (i : Idx) :
    (x.expand s).get i = x.get (pick x.shape i) := rfl

@[simp] theorem gather_shape (N : ℕ) (f : ℕ → α) (t : Tensor ℕ) :
    (gather N f t).shape = t.shape := rfl
@[simp] theorem gather_get (N : ℕ) (f : ℕ → α) (t : Tensor ℕ) (i : Idx) :
    (gather N f t).get i = f (t.get i) := rfl
@[simp] theorem gather_err (N : ℕ) (f : ℕ → α) (t : Tensor ℕ) :
    (gather N f t).err = gatherErr N t := rfl
@[simp] theorem gather1_shape (N R : ℕ) (f : ℕ → ℕ → α) (t : Tensor ℕ) :
    (gather1 N R f t).shape = R :: t.shape := rfl
@[simp] theorem gather1_get (N R : ℕ) (f : ℕ → ℕ → α) (t : Tensor ℕ) (r : ℕ) (i : Idx) :
    (gather1 N R f t).get (r :: i) = f (t.get i) r := rfl
@[simp] theorem gather1_err (N R : ℕ) (f : ℕ → ℕ → α) (t : Tensor ℕ) :
    (gather1 N R f t).err = gatherErr N t := rfl
@[simp] theorem gather2_shape (N R W : ℕ) (f : ℕ → ℕ → ℕ → α) (t : Tensor ℕ) :
    (gather2 N R W f t).shape = W :: R :: t.shape := rfl
@[simp] theorem gather2_get (N R W : ℕ) (f : ℕ → ℕ → ℕ → α) (t : Tensor ℕ) (w r : ℕ) (i : Idx) :
    (gather2 N R W f t).get (w :: r :: i) = f (t.get i) r w := rfl
@[simp] theorem gather2_err (N R W : ℕ) (f : ℕ → ℕ → ℕ → α) (t : Tensor ℕ) :
    (gather2 N R W f t).err = gatherErr N t := rfl
@[simp] theorem gatherPair_shape (N : ℕ) (f : ℕ → ℕ → α) (t u : Tensor ℕ) :
    (gatherPair N f t u).shape = bshape t.shape u.shape := rfl
@[simp] theorem gatherPair_get (N : ℕ) (f : ℕ → ℕ → α) (t u : Tensor ℕ) (i : Idx) :
    (gatherPair N f t u).get i = f (t.get (pick t.shape i)) (u.get (pick u.shape i)) := rfl
@[simp] theorem gatherPair_err (N : ℕ) (f : ℕ → ℕ → α) (t u : Tensor ℕ) :
    (gatherPair N f t u).err = orErr (orErr (gatherErr N t) (gatherErr N u))
      (if bcompat t.shape u.shape then none else some .index) := rfl

theorem gatherErr_eq_none {N : ℕ} {t : Tensor ℕ} (he : t.err = none) (h : t.AllLt N) :
    gatherErr N t = none := by simp [gatherErr, he, h]

/-! ### einsum -/

/-- Subscript labels used in the code
(`utils.py:91, 149, 205`, `model/base.py:302`, `model/d4.py:286, 307`, `model/d4s.py:197, 287, 316`). -/
inductive Lbl | i | j | k | a | b | w | m | n | r
  deriving DecidableEq

/-- One operand of `einsum`: labels (innermost first), whether it starts with `...`, tensor
(`tad_mctc.math.einsum`, see `Lbl`). -/
structure Operand where
  labels : List Lbl
  ell : Bool
  t : Tensor ℝ

/-- All pairs (label, size) of an operand (auxiliary for `einsum`). -/
def Operand.dims (o : Operand) : List (Lbl × ℕ) := o.labels.zip o.t.shape

/-- Batch axes covered by the ellipsis of an operand (auxiliary for `einsum`). -/
def Operand.batch (o : Operand) : Shape := o.t.shape.drop o.labels.length

/-- The number of axes fits the subscripts; auxiliary for `einsum` -/
def Operand.rankOk (o : Operand) : Prop :=
  if o.ell then o.labels.length ≤ o.t.shape.length else o.labels.length = o.t.shape.length

/-- Size of a label: broadcast over all its occurrences (auxiliary for `einsum`). -/
def lblDim (ds : List (Lbl × ℕ)) (l : Lbl) : ℕ :=
  ds.foldr (fun p acc => if p.1 = l then bdim p.2 acc else acc) 1

/-- All occurrences of a label are equal or one (auxiliary for `einsum`). -/
def lblOk (ds : List (Lbl × ℕ)) : Prop :=
  ∀ p ∈ ds, p.2 = 1 ∨ p.2 = lblDim ds p.1

/-- Auxiliary for `einsum` -/
def lblSet (σ : Lbl → ℕ) (l : Lbl) (k : ℕ) : Lbl → ℕ := fun l' => if l' = l then k else σ l'

/-- Bind the output labels to the output index (auxiliary for `einsum`). -/
def bindOut : List Lbl → Idx → (Lbl → ℕ) → (Lbl → ℕ)
  | l :: ls, k :: i, σ => lblSet (bindOut ls i σ) l k
  | _, _, σ => σ

/-- Sum over all values of the contracted labels (auxiliary for `einsum`). -/
noncomputable def sumOver (dim : Lbl → ℕ) : List Lbl → ((Lbl → ℕ) → ℝ) → (Lbl → ℕ) → ℝ
  | [], f, σ => f σ
  | l :: ls, f, σ => ∑ k ∈ Finset.range (dim l), sumOver dim ls f (lblSet σ l k)

/-- Broadcast of a list of batch shapes (auxiliary for `einsum`). -/
def bshapes : List Shape → Shape
  | [] => []
  | s :: l => bshape s (bshapes l)

/-- Auxiliary for `einsum` -/
def bcompats : List Shape → Prop
  | [] => True
  | s :: l => bcompat s (bshapes l) ∧ bcompats l

/-- Labels that are summed over, each once (auxiliary for `einsum`). -/
def contracted (ls : List (List Lbl)) (out : List Lbl) : List Lbl :=
  ls.flatten.foldr (fun l acc => if l ∈ out ∨ l ∈ acc then acc else l :: acc) []

/-- `einsum("<ops> -> ...<out>")`: every operand is read at the bound labels (with
broadcasting), the product is summed over all labels not in `out`
(`utils.py:91, 149, 205`, `model/base.py:302`, `model/d4.py:285, 307`, `model/d4s.py:197, 286, 316`). -/
noncomputable def einsum (ops : List Operand) (out : List Lbl) : Tensor ℝ :=
  let contr := contracted (ops.map Operand.labels) out
  let ds := ops.flatMap Operand.dims
  let batches := (ops.filter Operand.ell).map Operand.batch
  { err := ops.foldr (fun o e => orErr o.t.err e)
      (if (∀ o ∈ ops, o.rankOk) ∧ lblOk ds ∧ bcompats batches then none else some .runtime)
    shape := out.map (lblDim ds) ++ bshapes batches
    get := fun idx =>
      let e := idx.drop out.length
      sumOver (lblDim ds) contr
        (fun σ => ops.foldr (fun o acc =>
            o.t.get (pick o.t.shape (o.labels.map σ ++ (if o.ell then e else []))) * acc) 1)
        (bindOut out idx (fun _ => 0)) }

end Tensor
end TadDftd4
