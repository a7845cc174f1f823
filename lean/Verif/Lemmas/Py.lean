import Verif.Model.Py
import Mathlib.Tactic.Linarith
import Mathlib.Tactic.Positivity
import Mathlib.Tactic.Ring
import Mathlib.Tactic.FieldSimp

/-! # Simplification lemmas for the Python fragment -/

namespace Openspace

section Py
variable {α β : Type}

@[simp] theorem ok_bind (a : α) (f : α → Py β) : ((Except.ok a : Py α) >>= f) = f a := rfl

@[simp] theorem error_bind (e : PyErr) (f : α → Py β) :
    ((Except.error e : Py α) >>= f) = Except.error e := rfl

@[simp] theorem pure_eq_ok (a : α) : (pure a : Py α) = Except.ok a := rfl

theorem bind_eq_ok {x : Py α} {f : α → Py β} {b : β} :
    (x >>= f) = .ok b ↔ ∃ a, x = .ok a ∧ f a = .ok b := by
  cases x with
  | error e => simp
  | ok a => simp

theorem bind_eq_error {x : Py α} {f : α → Py β} {e : PyErr} :
    (x >>= f) = .error e ↔ x = .error e ∨ ∃ a, x = .ok a ∧ f a = .error e := by
  cases x with
  | error e => simp
  | ok a => simp

end Py

theorem pyDiv_ok {a b : ℝ} (h : b ≠ 0) : pyDiv a b = .ok (a / b) := by simp [pyDiv, h]

@[simp] theorem pyDiv_zero (a : ℝ) : pyDiv a 0 = .error .zeroDivision := by simp [pyDiv]

theorem pyDiv_eq_ok {a b c : ℝ} : pyDiv a b = .ok c ↔ b ≠ 0 ∧ a / b = c := by
  unfold pyDiv; split <;> simp_all

theorem pyDiv_eq_error {a b : ℝ} {e : PyErr} :
    pyDiv a b = .error e ↔ b = 0 ∧ e = .zeroDivision := by
  unfold pyDiv; split <;> simp_all [eq_comm]

theorem pySqrt_ok {x : ℝ} (h : 0 ≤ x) : pySqrt x = .ok (Real.sqrt x) := by
  simp [pySqrt, not_lt.mpr h]

theorem pySqrt_neg {x : ℝ} (h : x < 0) : pySqrt x = .error .valueError := by simp [pySqrt, h]

theorem pySqrt_eq_ok {x c : ℝ} : pySqrt x = .ok c ↔ 0 ≤ x ∧ Real.sqrt x = c := by
  unfold pySqrt; split <;> simp_all

theorem pySqrt_eq_error {x : ℝ} {e : PyErr} :
    pySqrt x = .error e ↔ x < 0 ∧ e = .valueError := by
  unfold pySqrt; split <;> simp_all [eq_comm]

theorem pyAsin_ok {x : ℝ} (h1 : -1 ≤ x) (h2 : x ≤ 1) : pyAsin x = .ok (Real.arcsin x) := by
  simp [pyAsin, not_lt.mpr h1, not_lt.mpr h2]

theorem pyAsin_eq_ok {x c : ℝ} : pyAsin x = .ok c ↔ (-1 ≤ x ∧ x ≤ 1) ∧ Real.arcsin x = c := by
  unfold pyAsin
  split
  · rename_i h
    simp only [reduceCtorEq, false_iff, not_and]
    rintro ⟨h1, h2⟩
    rcases h with h | h <;> linarith
  · rename_i h
    push Not at h
    simp [h]

theorem pyAcos_ok {x : ℝ} (h1 : -1 ≤ x) (h2 : x ≤ 1) : pyAcos x = .ok (Real.arccos x) := by
  simp [pyAcos, not_lt.mpr h1, not_lt.mpr h2]

theorem pyLog_ok {x : ℝ} (h : 0 < x) : pyLog x = .ok (Real.log x) := by
  simp [pyLog, not_le.mpr h]

theorem pyLog_nonpos {x : ℝ} (h : x ≤ 0) : pyLog x = .error .valueError := by simp [pyLog, h]

theorem pyLog_eq_ok {x c : ℝ} : pyLog x = .ok c ↔ 0 < x ∧ Real.log x = c := by
  unfold pyLog; split <;> simp_all

theorem pyLog10_ok {x : ℝ} (h : 0 < x) : pyLog10 x = .ok (Real.logb 10 x) := by
  simp [pyLog10, not_le.mpr h]

theorem pyLog10_eq_ok {x c : ℝ} : pyLog10 x = .ok c ↔ 0 < x ∧ Real.logb 10 x = c := by
  unfold pyLog10; split <;> simp_all

theorem pyPow_ok {x y : ℝ} (h : 0 ≤ x) : pyPow x y = .ok (x ^ y) := by
  simp [pyPow, not_lt.mpr h]

theorem pyPow_eq_ok {x y c : ℝ} : pyPow x y = .ok c ↔ 0 ≤ x ∧ x ^ y = c := by
  unfold pyPow; split <;> simp_all

theorem pyPowNeg_ok {x y : ℝ} (h : 0 < x) : pyPowNeg x y = .ok (x ^ (-y)) := by
  simp [pyPowNeg, h.ne', not_lt.mpr h.le]

theorem pyPowNeg_eq_ok {x y c : ℝ} : pyPowNeg x y = .ok c ↔ 0 < x ∧ x ^ (-y) = c := by
  unfold pyPowNeg
  split
  · rename_i h; simp [h]
  · split
    · rename_i h; simp [h.le]
    · rename_i h0 h
      simp only [Except.ok.injEq, iff_and_self]
      intro _
      exact lt_of_le_of_ne (not_lt.mp h) (Ne.symm h0)

namespace PyM
variable {σ τ α β : Type}

theorem bind_apply (m : PyM σ α) (f : α → PyM σ β) (s : σ) :
    (m >>= f) s = match m s with
      | (.ok a, s') => f a s'
      | (.error e, s') => (.error e, s') := rfl

theorem bind_ok {m : PyM σ α} {f : α → PyM σ β} {s s' : σ} {a : α} (h : m s = (.ok a, s')) :
    (m >>= f) s = f a s' := by rw [bind_apply, h]

theorem bind_error {m : PyM σ α} {f : α → PyM σ β} {s s' : σ} {e : PyErr}
    (h : m s = (.error e, s')) : (m >>= f) s = (.error e, s') := by rw [bind_apply, h]

@[simp] theorem pure_apply (a : α) (s : σ) : (pure a : PyM σ α) s = (.ok a, s) := rfl

@[simp] theorem pure_apply' (a : α) (s : σ) : (PyM.pure a : PyM σ α) s = (.ok a, s) := rfl

@[simp] theorem get_apply (s : σ) : (PyM.get : PyM σ σ) s = (.ok s, s) := rfl

@[simp] theorem modify_apply (f : σ → σ) (s : σ) : PyM.modify f s = (.ok (), f s) := rfl

@[simp] theorem lift_apply (x : Py α) (s : σ) : PyM.lift x s = (x, s) := rfl

@[simp] theorem throw_apply (e : PyErr) (s : σ) : (PyM.throw e : PyM σ α) s = (.error e, s) := rfl

@[simp] theorem get_bind_apply (f : σ → PyM σ β) (s : σ) : (PyM.get >>= f) s = f s s := rfl

@[simp] theorem modify_bind_apply (g : σ → σ) (f : Unit → PyM σ β) (s : σ) :
    (PyM.modify g >>= f) s = f () (g s) := rfl

@[simp] theorem pure_bind_apply (a : α) (f : α → PyM σ β) (s : σ) :
    ((pure a : PyM σ α) >>= f) s = f a s := rfl

@[simp] theorem throw_bind_apply (e : PyErr) (f : α → PyM σ β) (s : σ) :
    ((PyM.throw e : PyM σ α) >>= f) s = (.error e, s) := rfl

@[simp] theorem lift_ok_bind_apply (a : α) (f : α → PyM σ β) (s : σ) :
    (PyM.lift (.ok a) >>= f) s = f a s := rfl

@[simp] theorem lift_error_bind_apply (e : PyErr) (f : α → PyM σ β) (s : σ) :
    (PyM.lift (.error e : Py α) >>= f) s = (.error e, s) := rfl

theorem bind_eq_ok {m : PyM σ α} {f : α → PyM σ β} {s s'' : σ} {b : β} :
    (m >>= f) s = (.ok b, s'') ↔ ∃ a s', m s = (.ok a, s') ∧ f a s' = (.ok b, s'') := by
  rw [bind_apply]
  rcases h : m s with ⟨r, s'⟩
  cases r with
  | error e => simp
  | ok a =>
    simp only
    constructor
    · intro h2; exact ⟨a, s', rfl, h2⟩
    · rintro ⟨a', s1, h1, h2⟩
      simp only [Prod.mk.injEq, Except.ok.injEq] at h1
      rw [h1.1, h1.2]; exact h2

theorem lift_eq_ok {x : Py α} {s s' : σ} {a : α} :
    PyM.lift x s = (.ok a, s') ↔ x = .ok a ∧ s' = s := by
  simp [PyM.lift, eq_comm]

end PyM

end Openspace
