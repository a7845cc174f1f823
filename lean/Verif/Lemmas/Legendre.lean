import Verif.Spec.Legendre
import Mathlib.Algebra.Polynomial.Roots
import Mathlib.Tactic.Ring
import Mathlib.Tactic.NormNum

/-! # The Legendre polynomials up to degree 4 and their derivatives -/

namespace Openspace.Spec

open Polynomial

set_option linter.unusedSimpArgs false

/-- `c X^k` -/
noncomputable def mon (c : ℝ) (k : ℕ) : ℝ[X] := C c * X ^ k

theorem derivative_mon (c : ℝ) (k : ℕ) : derivative (mon c k) = mon (c * k) (k - 1) :=
  derivative_C_mul_X_pow c k

theorem derivative_mon' {c d : ℝ} {k l : ℕ} (h : c * k = d) (h' : k - 1 = l) :
    derivative (mon c k) = mon d l := by rw [derivative_mon, h, h']

theorem mon_zero (k : ℕ) : mon 0 k = 0 := by simp [mon]

theorem C_mul_mon {a c d : ℝ} (k : ℕ) (h : a * c = d) : C a * mon c k = mon d k := by
  rw [mon, mon, ← h, C_mul, mul_assoc]

theorem eval_mon (c : ℝ) (k : ℕ) (u : ℝ) : (mon c k).eval u = c * u ^ k := by simp [mon]

theorem base_0 : ((X : ℝ[X]) ^ 2 - 1) ^ 0 = mon (1) 0 := by
  apply Polynomial.funext; intro r; simp [eval_mon]

theorem legendre_0 : legendre 0 = mon (1) 0 := by
  rw [legendre, base_0]
  simp only [Function.iterate_zero, id]
  try simp only [mul_add]
  rw [C_mul_mon (c := 1) (d := 1) 0 (by norm_num [Nat.factorial])]

theorem ld00 (u : ℝ) : legendreDeriv 0 0 u = (1) := by
  simp only [legendreDeriv, legendre_0, Function.iterate_succ, Function.iterate_zero, Function.comp, id, eval_add, eval_mon]
  ring

theorem base_1 : ((X : ℝ[X]) ^ 2 - 1) ^ 1 = mon (1) 2 + mon (-1) 0 := by
  apply Polynomial.funext; intro r; simp [eval_mon]; ring

theorem base_1_0 : derivative (mon (1) 2 + mon (-1) 0) = mon (2) 1 := by
  try simp only [derivative_add]
  rw [derivative_mon' (c := 1) (k := 2) (d := 2) (l := 1) (by norm_num) rfl]
  rw [derivative_mon' (c := -1) (k := 0) (d := 0) (l := 0) (by norm_num) rfl, mon_zero, add_zero]

theorem legendre_1 : legendre 1 = mon (1) 1 := by
  rw [legendre, base_1]
  simp only [Function.iterate_succ, Function.iterate_zero, Function.comp, id, base_1_0]
  try simp only [mul_add]
  rw [C_mul_mon (c := 2) (d := 1) 1 (by norm_num [Nat.factorial])]

theorem ld10 (u : ℝ) : legendreDeriv 1 0 u = (1) * u := by
  simp only [legendreDeriv, legendre_1, Function.iterate_succ, Function.iterate_zero, Function.comp, id, eval_add, eval_mon]
  ring

theorem leg_1_1 : derivative (mon (1) 1) = mon (1) 0 := by
  try simp only [derivative_add]
  rw [derivative_mon' (c := 1) (k := 1) (d := 1) (l := 0) (by norm_num) rfl]

theorem ld11 (u : ℝ) : legendreDeriv 1 1 u = (1) := by
  simp only [legendreDeriv, legendre_1, Function.iterate_succ, Function.iterate_zero, Function.comp, id, leg_1_1, eval_add, eval_mon]
  ring

theorem base_2 : ((X : ℝ[X]) ^ 2 - 1) ^ 2 = mon (1) 4 + mon (-2) 2 + mon (1) 0 := by
  apply Polynomial.funext; intro r; simp [eval_mon]; ring

theorem base_2_0 : derivative (mon (1) 4 + mon (-2) 2 + mon (1) 0) = mon (4) 3 + mon (-4) 1 := by
  try simp only [derivative_add]
  rw [derivative_mon' (c := 1) (k := 4) (d := 4) (l := 3) (by norm_num) rfl]
  rw [derivative_mon' (c := -2) (k := 2) (d := -4) (l := 1) (by norm_num) rfl]
  rw [derivative_mon' (c := 1) (k := 0) (d := 0) (l := 0) (by norm_num) rfl, mon_zero, add_zero]

theorem base_2_1 : derivative (mon (4) 3 + mon (-4) 1) = mon (12) 2 + mon (-4) 0 := by
  try simp only [derivative_add]
  rw [derivative_mon' (c := 4) (k := 3) (d := 12) (l := 2) (by norm_num) rfl]
  rw [derivative_mon' (c := -4) (k := 1) (d := -4) (l := 0) (by norm_num) rfl]

theorem legendre_2 : legendre 2 = mon (3/2) 2 + mon (-1/2) 0 := by
  rw [legendre, base_2]
  simp only [Function.iterate_succ, Function.iterate_zero, Function.comp, id, base_2_0, base_2_1]
  try simp only [mul_add]
  rw [C_mul_mon (c := 12) (d := 3/2) 2 (by norm_num [Nat.factorial])]
  rw [C_mul_mon (c := -4) (d := -1/2) 0 (by norm_num [Nat.factorial])]

theorem ld20 (u : ℝ) : legendreDeriv 2 0 u = (3/2) * u ^ 2 + (-1/2) := by
  simp only [legendreDeriv, legendre_2, Function.iterate_succ, Function.iterate_zero, Function.comp, id, eval_add, eval_mon]
  ring

theorem leg_2_1 : derivative (mon (3/2) 2 + mon (-1/2) 0) = mon (3) 1 := by
  try simp only [derivative_add]
  rw [derivative_mon' (c := 3/2) (k := 2) (d := 3) (l := 1) (by norm_num) rfl]
  rw [derivative_mon' (c := -1/2) (k := 0) (d := 0) (l := 0) (by norm_num) rfl, mon_zero, add_zero]

theorem ld21 (u : ℝ) : legendreDeriv 2 1 u = (3) * u := by
  simp only [legendreDeriv, legendre_2, Function.iterate_succ, Function.iterate_zero, Function.comp, id, leg_2_1, eval_add, eval_mon]
  ring

theorem leg_2_2 : derivative (mon (3) 1) = mon (3) 0 := by
  try simp only [derivative_add]
  rw [derivative_mon' (c := 3) (k := 1) (d := 3) (l := 0) (by norm_num) rfl]

theorem ld22 (u : ℝ) : legendreDeriv 2 2 u = (3) := by
  simp only [legendreDeriv, legendre_2, Function.iterate_succ, Function.iterate_zero, Function.comp, id, leg_2_1, leg_2_2, eval_add, eval_mon]
  ring

theorem base_3 : ((X : ℝ[X]) ^ 2 - 1) ^ 3 = mon (1) 6 + mon (-3) 4 + mon (3) 2 + mon (-1) 0 := by
  apply Polynomial.funext; intro r; simp [eval_mon]; ring

theorem base_3_0 : derivative (mon (1) 6 + mon (-3) 4 + mon (3) 2 + mon (-1) 0) = mon (6) 5 + mon (-12) 3 + mon (6) 1 := by
  try simp only [derivative_add]
  rw [derivative_mon' (c := 1) (k := 6) (d := 6) (l := 5) (by norm_num) rfl]
  rw [derivative_mon' (c := -3) (k := 4) (d := -12) (l := 3) (by norm_num) rfl]
  rw [derivative_mon' (c := 3) (k := 2) (d := 6) (l := 1) (by norm_num) rfl]
  rw [derivative_mon' (c := -1) (k := 0) (d := 0) (l := 0) (by norm_num) rfl, mon_zero, add_zero]

theorem base_3_1 : derivative (mon (6) 5 + mon (-12) 3 + mon (6) 1) = mon (30) 4 + mon (-36) 2 + mon (6) 0 := by
  try simp only [derivative_add]
  rw [derivative_mon' (c := 6) (k := 5) (d := 30) (l := 4) (by norm_num) rfl]
  rw [derivative_mon' (c := -12) (k := 3) (d := -36) (l := 2) (by norm_num) rfl]
  rw [derivative_mon' (c := 6) (k := 1) (d := 6) (l := 0) (by norm_num) rfl]

theorem base_3_2 : derivative (mon (30) 4 + mon (-36) 2 + mon (6) 0) = mon (120) 3 + mon (-72) 1 := by
  try simp only [derivative_add]
  rw [derivative_mon' (c := 30) (k := 4) (d := 120) (l := 3) (by norm_num) rfl]
  rw [derivative_mon' (c := -36) (k := 2) (d := -72) (l := 1) (by norm_num) rfl]
  rw [derivative_mon' (c := 6) (k := 0) (d := 0) (l := 0) (by norm_num) rfl, mon_zero, add_zero]

theorem legendre_3 : legendre 3 = mon (5/2) 3 + mon (-3/2) 1 := by
  rw [legendre, base_3]
  simp only [Function.iterate_succ, Function.iterate_zero, Function.comp, id, base_3_0, base_3_1, base_3_2]
  try simp only [mul_add]
  rw [C_mul_mon (c := 120) (d := 5/2) 3 (by norm_num [Nat.factorial])]
  rw [C_mul_mon (c := -72) (d := -3/2) 1 (by norm_num [Nat.factorial])]

theorem ld30 (u : ℝ) : legendreDeriv 3 0 u = (5/2) * u ^ 3 + (-3/2) * u := by
  simp only [legendreDeriv, legendre_3, Function.iterate_succ, Function.iterate_zero, Function.comp, id, eval_add, eval_mon]
  ring

theorem leg_3_1 : derivative (mon (5/2) 3 + mon (-3/2) 1) = mon (15/2) 2 + mon (-3/2) 0 := by
  try simp only [derivative_add]
  rw [derivative_mon' (c := 5/2) (k := 3) (d := 15/2) (l := 2) (by norm_num) rfl]
  rw [derivative_mon' (c := -3/2) (k := 1) (d := -3/2) (l := 0) (by norm_num) rfl]

theorem ld31 (u : ℝ) : legendreDeriv 3 1 u = (15/2) * u ^ 2 + (-3/2) := by
  simp only [legendreDeriv, legendre_3, Function.iterate_succ, Function.iterate_zero, Function.comp, id, leg_3_1, eval_add, eval_mon]
  ring

theorem leg_3_2 : derivative (mon (15/2) 2 + mon (-3/2) 0) = mon (15) 1 := by
  try simp only [derivative_add]
  rw [derivative_mon' (c := 15/2) (k := 2) (d := 15) (l := 1) (by norm_num) rfl]
  rw [derivative_mon' (c := -3/2) (k := 0) (d := 0) (l := 0) (by norm_num) rfl, mon_zero, add_zero]

theorem ld32 (u : ℝ) : legendreDeriv 3 2 u = (15) * u := by
  simp only [legendreDeriv, legendre_3, Function.iterate_succ, Function.iterate_zero, Function.comp, id, leg_3_1, leg_3_2, eval_add, eval_mon]
  ring

theorem leg_3_3 : derivative (mon (15) 1) = mon (15) 0 := by
  try simp only [derivative_add]
  rw [derivative_mon' (c := 15) (k := 1) (d := 15) (l := 0) (by norm_num) rfl]

theorem ld33 (u : ℝ) : legendreDeriv 3 3 u = (15) := by
  simp only [legendreDeriv, legendre_3, Function.iterate_succ, Function.iterate_zero, Function.comp, id, leg_3_1, leg_3_2, leg_3_3, eval_add, eval_mon]
  ring

theorem base_4 : ((X : ℝ[X]) ^ 2 - 1) ^ 4 = mon (1) 8 + mon (-4) 6 + mon (6) 4 + mon (-4) 2 + mon (1) 0 := by
  apply Polynomial.funext; intro r; simp [eval_mon]; ring

theorem base_4_0 : derivative (mon (1) 8 + mon (-4) 6 + mon (6) 4 + mon (-4) 2 + mon (1) 0) = mon (8) 7 + mon (-24) 5 + mon (24) 3 + mon (-8) 1 := by
  try simp only [derivative_add]
  rw [derivative_mon' (c := 1) (k := 8) (d := 8) (l := 7) (by norm_num) rfl]
  rw [derivative_mon' (c := -4) (k := 6) (d := -24) (l := 5) (by norm_num) rfl]
  rw [derivative_mon' (c := 6) (k := 4) (d := 24) (l := 3) (by norm_num) rfl]
  rw [derivative_mon' (c := -4) (k := 2) (d := -8) (l := 1) (by norm_num) rfl]
  rw [derivative_mon' (c := 1) (k := 0) (d := 0) (l := 0) (by norm_num) rfl, mon_zero, add_zero]

theorem base_4_1 : derivative (mon (8) 7 + mon (-24) 5 + mon (24) 3 + mon (-8) 1) = mon (56) 6 + mon (-120) 4 + mon (72) 2 + mon (-8) 0 := by
  try simp only [derivative_add]
  rw [derivative_mon' (c := 8) (k := 7) (d := 56) (l := 6) (by norm_num) rfl]
  rw [derivative_mon' (c := -24) (k := 5) (d := -120) (l := 4) (by norm_num) rfl]
  rw [derivative_mon' (c := 24) (k := 3) (d := 72) (l := 2) (by norm_num) rfl]
  rw [derivative_mon' (c := -8) (k := 1) (d := -8) (l := 0) (by norm_num) rfl]

theorem base_4_2 : derivative (mon (56) 6 + mon (-120) 4 + mon (72) 2 + mon (-8) 0) = mon (336) 5 + mon (-480) 3 + mon (144) 1 := by
  try simp only [derivative_add]
  rw [derivative_mon' (c := 56) (k := 6) (d := 336) (l := 5) (by norm_num) rfl]
  rw [derivative_mon' (c := -120) (k := 4) (d := -480) (l := 3) (by norm_num) rfl]
  rw [derivative_mon' (c := 72) (k := 2) (d := 144) (l := 1) (by norm_num) rfl]
  rw [derivative_mon' (c := -8) (k := 0) (d := 0) (l := 0) (by norm_num) rfl, mon_zero, add_zero]

theorem base_4_3 : derivative (mon (336) 5 + mon (-480) 3 + mon (144) 1) = mon (1680) 4 + mon (-1440) 2 + mon (144) 0 := by
  try simp only [derivative_add]
  rw [derivative_mon' (c := 336) (k := 5) (d := 1680) (l := 4) (by norm_num) rfl]
  rw [derivative_mon' (c := -480) (k := 3) (d := -1440) (l := 2) (by norm_num) rfl]
  rw [derivative_mon' (c := 144) (k := 1) (d := 144) (l := 0) (by norm_num) rfl]

theorem legendre_4 : legendre 4 = mon (35/8) 4 + mon (-15/4) 2 + mon (3/8) 0 := by
  rw [legendre, base_4]
  simp only [Function.iterate_succ, Function.iterate_zero, Function.comp, id, base_4_0, base_4_1, base_4_2, base_4_3]
  try simp only [mul_add]
  rw [C_mul_mon (c := 1680) (d := 35/8) 4 (by norm_num [Nat.factorial])]
  rw [C_mul_mon (c := -1440) (d := -15/4) 2 (by norm_num [Nat.factorial])]
  rw [C_mul_mon (c := 144) (d := 3/8) 0 (by norm_num [Nat.factorial])]

theorem ld40 (u : ℝ) : legendreDeriv 4 0 u = (35/8) * u ^ 4 + (-15/4) * u ^ 2 + (3/8) := by
  simp only [legendreDeriv, legendre_4, Function.iterate_succ, Function.iterate_zero, Function.comp, id, eval_add, eval_mon]
  ring

theorem leg_4_1 : derivative (mon (35/8) 4 + mon (-15/4) 2 + mon (3/8) 0) = mon (35/2) 3 + mon (-15/2) 1 := by
  try simp only [derivative_add]
  rw [derivative_mon' (c := 35/8) (k := 4) (d := 35/2) (l := 3) (by norm_num) rfl]
  rw [derivative_mon' (c := -15/4) (k := 2) (d := -15/2) (l := 1) (by norm_num) rfl]
  rw [derivative_mon' (c := 3/8) (k := 0) (d := 0) (l := 0) (by norm_num) rfl, mon_zero, add_zero]

theorem ld41 (u : ℝ) : legendreDeriv 4 1 u = (35/2) * u ^ 3 + (-15/2) * u := by
  simp only [legendreDeriv, legendre_4, Function.iterate_succ, Function.iterate_zero, Function.comp, id, leg_4_1, eval_add, eval_mon]
  ring

theorem leg_4_2 : derivative (mon (35/2) 3 + mon (-15/2) 1) = mon (105/2) 2 + mon (-15/2) 0 := by
  try simp only [derivative_add]
  rw [derivative_mon' (c := 35/2) (k := 3) (d := 105/2) (l := 2) (by norm_num) rfl]
  rw [derivative_mon' (c := -15/2) (k := 1) (d := -15/2) (l := 0) (by norm_num) rfl]

theorem ld42 (u : ℝ) : legendreDeriv 4 2 u = (105/2) * u ^ 2 + (-15/2) := by
  simp only [legendreDeriv, legendre_4, Function.iterate_succ, Function.iterate_zero, Function.comp, id, leg_4_1, leg_4_2, eval_add, eval_mon]
  ring

theorem leg_4_3 : derivative (mon (105/2) 2 + mon (-15/2) 0) = mon (105) 1 := by
  try simp only [derivative_add]
  rw [derivative_mon' (c := 105/2) (k := 2) (d := 105) (l := 1) (by norm_num) rfl]
  rw [derivative_mon' (c := -15/2) (k := 0) (d := 0) (l := 0) (by norm_num) rfl, mon_zero, add_zero]

theorem ld43 (u : ℝ) : legendreDeriv 4 3 u = (105) * u := by
  simp only [legendreDeriv, legendre_4, Function.iterate_succ, Function.iterate_zero, Function.comp, id, leg_4_1, leg_4_2, leg_4_3, eval_add, eval_mon]
  ring

theorem leg_4_4 : derivative (mon (105) 1) = mon (105) 0 := by
  try simp only [derivative_add]
  rw [derivative_mon' (c := 105) (k := 1) (d := 105) (l := 0) (by norm_num) rfl]

theorem ld44 (u : ℝ) : legendreDeriv 4 4 u = (105) := by
  simp only [legendreDeriv, legendre_4, Function.iterate_succ, Function.iterate_zero, Function.comp, id, leg_4_1, leg_4_2, leg_4_3, leg_4_4, eval_add, eval_mon]
  ring

end Openspace.Spec
