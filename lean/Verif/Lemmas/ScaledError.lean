import Verif.Lemmas.DoubleSunMoon

/-! # Errors in multiples of a unit and of a scale -/

namespace Openspace.F64

/-- a unit of error `t` far above that of one rounding and far below one -/
structure ErrUnit (t : ℝ) : Prop where
  lo : u ≤ 1.2e-4 * t
  hi : t ≤ 1e-5

theorem ErrUnit.pos {t : ℝ} (h : ErrUnit t) : 0 < t := by
  have := u_pos; have := h.lo; norm_num at this ⊢; linarith

/-- `y` is `x` to `E` units `t` of the scale `σ`, and `x` is at most `b` of the scale -/
structure Ts (t σ y x E b : ℝ) : Prop where
  err : |y - x| ≤ E * t * σ
  le : |x| ≤ b * σ
  e0 : 0 ≤ E
  b0 : 0 ≤ b
  s0 : 0 ≤ σ

section

variable {t σ σ' y x E b y1 x1 E1 b1 σ1 y2 x2 E2 b2 σ2 E' b' : ℝ}

theorem Ts.mono (h : Ts t σ y x E b) (ht : 0 ≤ t) (hE : E ≤ E') (hb : b ≤ b') : Ts t σ y x E' b' := by
  have hs := h.s0
  refine ⟨h.err.trans ?_, h.le.trans ?_, h.e0.trans hE, h.b0.trans hb, hs⟩ <;> gcongr

/-- a smaller bound of the size -/
theorem Ts.bound (h : Ts t σ y x E b) (hb : |x| ≤ b' * σ) (h0 : 0 ≤ b') : Ts t σ y x E b' :=
  ⟨h.err, hb, h.e0, h0, h.s0⟩

theorem Ts.rescale (h : Ts t σ y x E b) (ht : 0 ≤ t) (hs : σ ≤ σ') : Ts t σ' y x E b := by
  have he := h.e0
  have hb := h.b0
  refine ⟨h.err.trans ?_, h.le.trans ?_, he, hb, h.s0.trans hs⟩ <;> gcongr

theorem Ts.exact (hx : |x| ≤ b * σ) (hb : 0 ≤ b) (hs : 0 ≤ σ) : Ts t σ x x 0 b := ⟨by simp, hx, le_rfl, hb, hs⟩

theorem Ts.num (c : ℝ) : Ts t 1 c c 0 |c| := Ts.exact (by simp) (abs_nonneg _) zero_le_one

theorem Ts.neg (h : Ts t σ y x E b) : Ts t σ (-y) (-x) E b := by
  refine ⟨?_, by rw [abs_neg]; exact h.le, h.e0, h.b0, h.s0⟩
  rw [show -y - -x = -(y - x) by ring, abs_neg]; exact h.err

theorem Ts.abs_le (h : Ts t σ y x E b) : |y| ≤ (b + E * t) * σ := by
  have h1 := h.err; have h2 := h.le
  have h3 := abs_sub_abs_le_abs_sub y x
  linarith

theorem Ts.rnd (h : Ts t σ y x E b) (ht : ErrUnit t) : Ts t σ (rnd y) x (1.00001 * E + 1.2e-4 * b) b := by
  have he := h.e0; have hb := h.b0; have hs := h.s0; have htp := ht.pos
  have hlo := ht.lo; have hhi := ht.hi
  refine ⟨?_, h.le, by positivity, hb, hs⟩
  have h1 := h.err
  have h2 := h.abs_le
  have h3 := rnd_u y
  have h4 := abs_sub_le (F64.rnd y) y x
  have hup := u_pos
  have h5 : u * |y| ≤ (1.2e-4 * t) * ((b + E * t) * σ) := mul_le_mul hlo h2 (abs_nonneg _) (by positivity)
  have h6 : E * t ≤ E * 1e-5 := by gcongr
  have h7 : (1.2e-4 * t) * ((b + E * t) * σ) ≤ (1.2e-4 * t) * ((b + E * 1e-5) * σ) := by gcongr
  have h8 : (1.2e-4 * t) * ((b + E * 1e-5) * σ) ≤ (1.2e-4 * b + 1e-5 * E) * t * σ := by
    have : (1.2e-4 : ℝ) * (b + E * 1e-5) ≤ 1.2e-4 * b + 1e-5 * E := by norm_num; linarith
    calc (1.2e-4 * t) * ((b + E * 1e-5) * σ) = (1.2e-4 * (b + E * 1e-5)) * t * σ := by ring
      _ ≤ _ := by gcongr
  calc |F64.rnd y - x| ≤ (1.2e-4 * b + 1e-5 * E) * t * σ + E * t * σ := by linarith
    _ = (1.00001 * E + 1.2e-4 * b) * t * σ := by ring

theorem Ts.add0 (h : Ts t σ y1 x1 E1 b1) (g : Ts t σ y2 x2 E2 b2) : Ts t σ (y1 + y2) (x1 + x2) (E1 + E2) (b1 + b2) := by
  refine ⟨?_, ?_, add_nonneg h.e0 g.e0, add_nonneg h.b0 g.b0, h.s0⟩
  · rw [show y1 + y2 - (x1 + x2) = (y1 - x1) + (y2 - x2) by ring]
    refine (abs_add_le _ _).trans ?_
    have := h.err; have := g.err; linarith
  · refine (abs_add_le _ _).trans ?_
    have := h.le; have := g.le; linarith

theorem Ts.add (ht : ErrUnit t) (h : Ts t σ y1 x1 E1 b1) (g : Ts t σ y2 x2 E2 b2) :
    Ts t σ (F64.rnd (y1 + y2)) (x1 + x2) (1.00001 * (E1 + E2) + 1.2e-4 * (b1 + b2)) (b1 + b2) := (h.add0 g).rnd ht

theorem Ts.sub (ht : ErrUnit t) (h : Ts t σ y1 x1 E1 b1) (g : Ts t σ y2 x2 E2 b2) :
    Ts t σ (F64.rnd (y1 - y2)) (x1 - x2) (1.00001 * (E1 + E2) + 1.2e-4 * (b1 + b2)) (b1 + b2) := by
  rw [sub_eq_add_neg, sub_eq_add_neg]; exact h.add ht g.neg

theorem Ts.mul0 (ht : ErrUnit t) (h : Ts t σ1 y1 x1 E1 b1) (g : Ts t σ2 y2 x2 E2 b2) :
    Ts t (σ1 * σ2) (y1 * y2) (x1 * x2) (E1 * b2 + b1 * E2 + 1e-5 * (E1 * E2)) (b1 * b2) := by
  have he := h.e0; have hb := h.b0; have hs := h.s0; have htp := ht.pos
  have he' := g.e0; have hb' := g.b0; have hs' := g.s0
  refine ⟨?_, ?_, by positivity, by positivity, by positivity⟩
  · rw [show y1 * y2 - x1 * x2 = (y1 - x1) * x2 + x1 * (y2 - x2) + (y1 - x1) * (y2 - x2) by ring]
    refine (abs_add_three _ _ _).trans ?_
    rw [abs_mul, abs_mul, abs_mul]
    have c1 := mul_le_mul h.err g.le (abs_nonneg _) (by positivity)
    have c2 := mul_le_mul h.le g.err (abs_nonneg _) (by positivity)
    have c3 := mul_le_mul h.err g.err (abs_nonneg _) (by positivity)
    have c4 : E1 * t * σ1 * (E2 * t * σ2) ≤ E1 * t * σ1 * (E2 * 1e-5 * σ2) := by
      have := ht.hi; gcongr
    calc _ ≤ E1 * t * σ1 * (b2 * σ2) + b1 * σ1 * (E2 * t * σ2) + E1 * t * σ1 * (E2 * 1e-5 * σ2) := by linarith
      _ = _ := by ring
  · rw [abs_mul]
    calc _ ≤ b1 * σ1 * (b2 * σ2) := mul_le_mul h.le g.le (abs_nonneg _) (by positivity)
      _ = _ := by ring

theorem Ts.mul (ht : ErrUnit t) (h : Ts t σ1 y1 x1 E1 b1) (g : Ts t σ2 y2 x2 E2 b2) :
    Ts t (σ1 * σ2) (F64.rnd (y1 * y2)) (x1 * x2)
      (1.00001 * (E1 * b2 + b1 * E2 + 1e-5 * (E1 * E2)) + 1.2e-4 * (b1 * b2)) (b1 * b2) := (h.mul0 ht g).rnd ht

/-- products of numbers without dimension -/
theorem Ts.mul1 (ht : ErrUnit t) (h : Ts t 1 y1 x1 E1 b1) (g : Ts t 1 y2 x2 E2 b2) :
    Ts t 1 (F64.rnd (y1 * y2)) (x1 * x2)
      (1.00001 * (E1 * b2 + b1 * E2 + 1e-5 * (E1 * E2)) + 1.2e-4 * (b1 * b2)) (b1 * b2) := by
  have := h.mul ht g; rwa [mul_one] at this

/-- a relative error of some roundings -/
theorem Ts.of_near {k : ℝ} (ht : ErrUnit t) (h : Near y x k) (hx : |x| ≤ b * σ) (hk : 0 ≤ k) (hb : 0 ≤ b) (hs : 0 ≤ σ) :
    Ts t σ y x (1.2e-4 * k * b) b := by
  have htp := ht.pos
  refine ⟨?_, hx, by positivity, hb, hs⟩
  unfold Near at h
  have hl := ht.lo
  have hup := u_pos
  calc |y - x| ≤ k * u * |x| := h
    _ ≤ k * (1.2e-4 * t) * (b * σ) := by gcongr
    _ = _ := by ring

/-- the reciprocal of a number of the size of the scale -/
theorem Ts.inv (ht : ErrUnit t) (h : Ts t σ y σ E 1) (hs : 0 < σ) (hE : E ≤ 100) :
    0 < y ∧ Ts t (1 / σ) (F64.rnd (1 / y)) (1 / σ) (1.003 * E + 1.2e-4) 1 := by
  have he := h.e0; have htp := ht.pos; have hhi := ht.hi
  have h1 := _root_.abs_le.mp h.err
  have h2 : E * t ≤ 1e-3 := by
    calc E * t ≤ 100 * 1e-5 := by gcongr
      _ = 1e-3 := by norm_num
  have h3 : E * t * σ ≤ 1e-3 * σ := by gcongr
  have hy : 0.999 * σ ≤ y := by norm_num at h3 ⊢; linarith [h1.1]
  have hy0 : 0 < y := lt_of_lt_of_le (by positivity) hy
  refine ⟨hy0, ?_⟩
  have h5 : Ts t (1 / σ) (1 / y) (1 / σ) (1.00101 * E) 1 := by
    refine ⟨?_, by rw [one_mul, abs_of_pos (by positivity)], by positivity, zero_le_one, by positivity⟩
    rw [show 1 / y - 1 / σ = (σ - y) / (y * σ) by field_simp, abs_div, abs_of_pos (by positivity : 0 < y * σ), abs_sub_comm,
      div_le_iff₀ (by positivity)]
    calc |y - σ| ≤ E * t * σ := h.err
      _ ≤ 1.00101 * E * t * (0.999 * σ) := by
        have h0 : 0 ≤ E * t * σ := by positivity
        norm_num; nlinarith
      _ ≤ 1.00101 * E * t * y := by gcongr
      _ = 1.00101 * E * t * (1 / σ) * (y * σ) := by field_simp
  refine (h5.rnd ht).mono htp.le ?_ le_rfl
  norm_num; linarith

end

end Openspace.F64
