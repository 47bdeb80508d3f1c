import Mathlib.Analysis.SpecialFunctions.Pow.Real
import Mathlib.Algebra.Order.Floor.Ring

/-!
# Numbers as numpy sees them

`Num α` is the number type of the model: an exact finite value, an infinity or NaN.
It models the *exceptional-value* behaviour of IEEE doubles in numpy (division by zero gives
inf/NaN and no exception, NaN propagates, comparisons with NaN are false).
Simplification: finite arithmetic is exact (no rounding, no overflow), and there is one zero
(dividing by it has the sign of the numerator, as for `+0.0`).
-/

set_option linter.unusedSectionVars false

namespace ExoRad

/-- A number of a numpy array: finite, infinite or NaN, in the columns of `exorad/models/noise.py` and the tables of `exorad/tasks/*.py` (signed zeros are not distinguished). -/
inductive Num (α : Type) where
  | fin (x : α)
  | posInf
  | negInf
  | nan
deriving DecidableEq, Repr

namespace Num
section
variable {α : Type} [Field α] [LinearOrder α]

/-- numpy `a + b`. As in `exorad/models/noise.py:171`, `exorad/tasks/targetHandler.py:176-181`. -/
def add : Num α → Num α → Num α
  | fin x, fin y => fin (x + y)
  | nan, _ => nan
  | _, nan => nan
  | posInf, negInf => nan
  | negInf, posInf => nan
  | posInf, _ => posInf
  | _, posInf => posInf
  | negInf, _ => negInf
  | _, negInf => negInf

/-- numpy `-a`. As in `exorad/models/noise.py`, for differences. -/
def neg : Num α → Num α
  | fin x => fin (-x)
  | posInf => negInf
  | negInf => posInf
  | nan => nan

/-- infinity with the sign of `x`; NaN when `x = 0` (numpy `x * inf`, `x / 0`). For `exorad/models/noise.py:33-52`. -/
def signedInf (x : α) : Num α :=
  if x = 0 then nan else if 0 < x then posInf else negInf

/-- numpy `a * b`. As in `exorad/models/noise.py:135-141`, `:171`. -/
def mul : Num α → Num α → Num α
  | fin x, fin y => fin (x * y)
  | nan, _ => nan
  | _, nan => nan
  | fin x, posInf => signedInf x
  | fin x, negInf => signedInf (-x)
  | posInf, fin x => signedInf x
  | negInf, fin x => signedInf (-x)
  | posInf, posInf => posInf
  | negInf, negInf => posInf
  | posInf, negInf => negInf
  | negInf, posInf => negInf

/-- numpy `a / b` (no exception on zero). As in `exorad/models/noise.py:33-40`, `exorad/tasks/noiseHandler.py:84-92`. -/
def div : Num α → Num α → Num α
  | fin x, fin y => if y = 0 then signedInf x else fin (x / y)
  | nan, _ => nan
  | _, nan => nan
  | fin _, _ => fin 0
  | posInf, fin y => if 0 ≤ y then posInf else negInf
  | negInf, fin y => if 0 ≤ y then negInf else posInf
  | _, _ => nan

/-- numpy `a < b`. As in `exorad/models/noise.py:33-52`. -/
def lt : Num α → Num α → Bool
  | fin x, fin y => decide (x < y)
  | nan, _ => false
  | _, nan => false
  | negInf, negInf => false
  | posInf, posInf => false
  | negInf, _ => true
  | _, posInf => true
  | _, _ => false

/-- numpy `np.minimum(a, b)`: NaN wins. For `minList`. `exorad/models/noise.py:48`. -/
def min2 (a b : Num α) : Num α :=
  match a, b with
  | nan, _ => nan
  | _, nan => nan
  | a, b => if lt b a then b else a

instance : Add (Num α) := ⟨add⟩
instance : Mul (Num α) := ⟨mul⟩
instance : Div (Num α) := ⟨div⟩
instance : Neg (Num α) := ⟨neg⟩
instance : Sub (Num α) := ⟨fun a b => add a (neg b)⟩
/-- A Python literal or payload number used as a numpy scalar. -/
instance : Coe α (Num α) := ⟨fin⟩

@[simp] theorem fin_add (x y : α) : (fin x + fin y : Num α) = fin (x + y) := rfl
@[simp] theorem fin_mul (x y : α) : (fin x * fin y : Num α) = fin (x * y) := rfl
@[simp] theorem fin_neg (x : α) : (-fin x : Num α) = fin (-x) := rfl
@[simp] theorem fin_sub (x y : α) : (fin x - fin y : Num α) = fin (x - y) := by
  show fin (x + -y) = _
  rw [sub_eq_add_neg]
theorem fin_div (x y : α) (h : y ≠ 0) : (fin x / fin y : Num α) = fin (x / y) := by
  show div (fin x) (fin y) = _
  simp [div, h]
theorem fin_div_zero (x : α) : (fin x / fin 0 : Num α) = signedInf x := by
  show div (fin x) (fin 0) = _
  simp [div]
@[simp] theorem nan_add (a : Num α) : (nan + a : Num α) = nan := by
  show add nan a = _
  cases a <;> rfl
@[simp] theorem add_nan (a : Num α) : (a + nan : Num α) = nan := by
  show add a nan = _
  cases a <;> rfl
@[simp] theorem nan_mul (a : Num α) : (nan * a : Num α) = nan := by
  show mul nan a = _
  cases a <;> rfl
@[simp] theorem mul_nan (a : Num α) : (a * nan : Num α) = nan := by
  show mul a nan = _
  cases a <;> rfl
@[simp] theorem nan_div (a : Num α) : (nan / a : Num α) = nan := by
  show div nan a = _
  cases a <;> rfl
@[simp] theorem div_nan (a : Num α) : (a / nan : Num α) = nan := by
  show div a nan = _
  cases a <;> rfl
@[simp] theorem lt_fin (x y : α) : lt (fin x) (fin y) = decide (x < y) := rfl

/-- `np.min` of a list: `none` stands for the ValueError on an empty array. As in `exorad/models/noise.py:33-52`. -/
def minList : List (Num α) → Option (Num α)
  | [] => none
  | a :: l => some (l.foldl min2 a)

/-- `np.floor`. `exorad/models/noise.py:72`. -/
def floor [FloorRing α] [IsStrictOrderedRing α] : Num α → Num α
  | fin x => fin ((⌊x⌋ : Int) : α)
  | a => a

end

/-- `np.sqrt`: NaN on negative numbers. `exorad/models/noise.py:134`, `exorad/tasks/noiseHandler.py:84-92`. -/
noncomputable def sqrt : Num ℝ → Num ℝ
  | fin x => if x < 0 then nan else fin (Real.sqrt x)
  | posInf => posInf
  | negInf => nan
  | nan => nan

theorem sqrt_fin {x : ℝ} (h : 0 ≤ x) : sqrt (fin x) = fin (Real.sqrt x) := by
  simp [sqrt, not_lt.mpr h]

@[simp] theorem sqrt_nan : sqrt nan = nan := rfl

end Num
end ExoRad
