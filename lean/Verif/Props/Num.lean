import Verif.Model.Num

/-!
# Exceptional values: the rules of IEEE 754 that numpy follows
-/

set_option linter.unusedSectionVars false

namespace ExoRad.Num

section
variable {α : Type} [Field α] [LinearOrder α] [IsStrictOrderedRing α]

/-- An infinity of either sign. -/
def IsInf (a : Num α) : Prop := a = posInf ∨ a = negInf

omit [IsStrictOrderedRing α] in
theorem add_eq_nan_iff (a b : Num α) : a + b = nan ↔ a = nan ∨ b = nan ∨ (a = posInf ∧ b = negInf) ∨ (a = negInf ∧ b = posInf) := by
  show add a b = nan ↔ _
  cases a <;> cases b <;> simp [add]

omit [IsStrictOrderedRing α] in
theorem add_eq_posInf_iff (a b : Num α) : a + b = posInf ↔ (a = posInf ∧ b ≠ nan ∧ b ≠ negInf) ∨ (b = posInf ∧ a ≠ nan ∧ a ≠ negInf) := by
  show add a b = posInf ↔ _
  cases a <;> cases b <;> simp [add]

omit [IsStrictOrderedRing α] in
theorem add_eq_negInf_iff (a b : Num α) : a + b = negInf ↔ (a = negInf ∧ b ≠ nan ∧ b ≠ posInf) ∨ (b = negInf ∧ a ≠ nan ∧ a ≠ posInf) := by
  show add a b = negInf ↔ _
  cases a <;> cases b <;> simp [add]

omit [IsStrictOrderedRing α] in
/-- The difference of two equal infinities is not a number; of two different ones it is the first. -/
theorem sub_eq_nan_iff (a b : Num α) : a - b = nan ↔ a = nan ∨ b = nan ∨ (IsInf a ∧ a = b) := by
  show add a (neg b) = nan ↔ _
  cases a <;> cases b <;> simp [add, neg, IsInf]

/-- A number less than zero, an infinity included. -/
def Negative (a : Num α) : Prop := lt a (fin 0) = true

/-- A number greater than zero, an infinity included. -/
def Positive (a : Num α) : Prop := lt (fin 0) a = true

theorem mul_eq_nan_iff (a b : Num α) : a * b = nan ↔ a = nan ∨ b = nan ∨ (a = fin 0 ∧ IsInf b) ∨ (IsInf a ∧ b = fin 0) := by
  show mul a b = nan ↔ _
  cases a <;> cases b <;> simp [mul, signedInf, IsInf] <;> split_ifs <;> simp_all

theorem mul_eq_posInf_iff (a b : Num α) : a * b = posInf ↔ (IsInf a ∨ IsInf b) ∧ ((Positive a ∧ Positive b) ∨ (Negative a ∧ Negative b)) := by
  show mul a b = posInf ↔ _
  cases a <;> cases b <;> simp [mul, signedInf, IsInf, Positive, Negative, lt] <;> (try split_ifs) <;> grind

theorem mul_eq_negInf_iff (a b : Num α) : a * b = negInf ↔ (IsInf a ∨ IsInf b) ∧ ((Positive a ∧ Negative b) ∨ (Negative a ∧ Positive b)) := by
  show mul a b = negInf ↔ _
  cases a <;> cases b <;> simp [mul, signedInf, IsInf, Positive, Negative, lt] <;> (try split_ifs) <;> grind

omit [IsStrictOrderedRing α] in
theorem div_eq_nan_iff (a b : Num α) : a / b = nan ↔ a = nan ∨ b = nan ∨ (a = fin 0 ∧ b = fin 0) ∨ (IsInf a ∧ IsInf b) := by
  show div a b = nan ↔ _
  cases a <;> cases b <;> simp [div, signedInf, IsInf] <;> split_ifs <;> simp_all

omit [IsStrictOrderedRing α] in
/-- A quotient by zero has the sign of the numerator, and a quotient by an infinity is zero. -/
theorem div_eq_posInf_iff (a b : Num α) : a / b = posInf ↔ (Positive a ∧ b = fin 0) ∨ (a = posInf ∧ Positive b ∧ b ≠ posInf) ∨ (a = negInf ∧ Negative b ∧ b ≠ negInf) := by
  show div a b = posInf ↔ _
  cases a <;> cases b <;> simp [div, signedInf, Positive, Negative, lt] <;> (try split_ifs) <;> grind

omit [IsStrictOrderedRing α] in
theorem div_eq_fin_zero_of_isInf (x : α) (b : Num α) (h : IsInf b) : fin x / b = fin 0 := by
  show div (fin x) b = _
  rcases h with rfl | rfl <;> rfl

omit [IsStrictOrderedRing α] in
/-- Comparisons with NaN are false, and the numbers that are not NaN are in a strict linear order with the infinities at its ends. -/
theorem lt_rules (a b c : Num α) : (lt a nan = false ∧ lt nan a = false) ∧ lt a a = false ∧ (lt a b = true → lt b c = true → lt a c = true) ∧
    (a ≠ nan → b ≠ nan → lt a b = true ∨ a = b ∨ lt b a = true) ∧ (lt a posInf = true ↔ a ≠ nan ∧ a ≠ posInf) ∧ (lt negInf a = true ↔ a ≠ nan ∧ a ≠ negInf) := by
  refine ⟨by cases a <;> simp [lt], by cases a <;> simp [lt], ?_, ?_, by cases a <;> simp [lt], by cases a <;> simp [lt]⟩
  · cases a <;> cases b <;> cases c <;> simp [lt]
    exact lt_trans
  · cases a <;> cases b <;> simp [lt, lt_trichotomy]

omit [IsStrictOrderedRing α] in
/-- `np.minimum` is NaN exactly when one of the two is, and otherwise it is one of the two and neither is less. -/
theorem min2_rules (a b : Num α) : (min2 a b = nan ↔ a = nan ∨ b = nan) ∧ (a ≠ nan → b ≠ nan → (min2 a b = a ∨ min2 a b = b) ∧ lt a (min2 a b) = false ∧ lt b (min2 a b) = false) := by
  cases a <;> cases b <;> simp [min2, lt] <;> (try split_ifs) <;> simp_all [lt] <;> grind

end

/-- `np.sqrt` is NaN exactly on NaN and on the negative numbers, and elsewhere it is the number that is not negative and whose square is the given one. -/
theorem sqrt_rules (a : Num ℝ) : (sqrt a = nan ↔ a = nan ∨ Negative a) ∧ (sqrt a ≠ nan → ¬ Negative (sqrt a) ∧ sqrt a * sqrt a = a) := by
  cases a with
  | fin x =>
    by_cases h : x < 0
    · simp [sqrt, h, Negative, lt]
    · have h0 := not_lt.mp h
      simp [sqrt, h, Negative, lt, Real.mul_self_sqrt h0, Real.sqrt_nonneg]
  | posInf => simp [sqrt, Negative, lt]; rfl
  | negInf => simp [sqrt, Negative, lt]
  | nan => simp [sqrt]

/-- The rules on a few numbers. -/
example : (fin 2 / fin 0 : Num ℚ) = posInf ∧ (posInf + negInf : Num ℚ) = nan ∧ (negInf * fin (-3) : Num ℚ) = posInf ∧ lt (nan : Num ℚ) (fin 1) = false := by decide +kernel

end ExoRad.Num
