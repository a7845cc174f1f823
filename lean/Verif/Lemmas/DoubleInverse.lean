import Verif.Lemmas.DoubleMatrix
import Verif.Props.Linalg

/-! # The inverse of a matrix of three rows in double precision -/

namespace Openspace.F64

open Matrix

section
variable {a b c a' b' c' A B C : ℝ}

theorem triple_sc (ha : Sc a' a 1.001 A) (hb : Sc b' b 1.001 B) (hc : Sc c' c 1.001 C) :
    Sc (rnd (rnd (a' * b') * c')) (a * b * c) 5.03 (A * B * C) :=
  ((ha.mul hb (by norm_num) (by norm_num) (by norm_num) (by norm_num)).mul hc (by norm_num) (by norm_num) (by norm_num)
    (by norm_num)).mono (by norm_num)

theorem minor_sc {d d' D s : ℝ} (ha : Sc a' a 1.001 A) (hb : Sc b' b 1.001 B) (hc : Sc c' c 1.001 C) (hd : Sc d' d 1.001 D)
    (h1 : A * B = s) (h2 : C * D = s) : Sc (rnd (rnd (a' * b') - rnd (c' * d'))) (a * b - c * d) 4.02 (2 * s) := by
  have m1 := ha.mul hb (by norm_num) (by norm_num) (by norm_num) (by norm_num)
  have m2 := hc.mul hd (by norm_num) (by norm_num) (by norm_num) (by norm_num)
  rw [h1] at m1
  rw [h2] at m2
  have m3 := m1.sub m2 (by norm_num) (by norm_num)
  rw [two_mul]
  exact m3.mono (by norm_num)
end

/-- the determinant, relative to the product of the squares of the scales of the rows -/
theorem determinant_sc {m' m : Mat3} {s : Fin 3 → ℝ} (h : MSc m'.toMatrix m.toMatrix 1.001 (fun i j => s i * s j)) :
    |determinant m' - m.determinant| ≤ 60.5 * u * (s 0 * s 1 * s 2) ^ 2 := by
  have hu := u_pos
  have t1 := triple_sc (h 0 0) (h 1 1) (h 2 2)
  have t2 := triple_sc (h 0 1) (h 1 2) (h 2 0)
  have t3 := triple_sc (h 0 2) (h 1 0) (h 2 1)
  have t4 := triple_sc (h 0 2) (h 1 1) (h 2 0)
  have t5 := triple_sc (h 0 1) (h 1 0) (h 2 2)
  have t6 := triple_sc (h 0 0) (h 1 2) (h 2 1)
  have n1 := t1.add t2 (by norm_num) (by norm_num)
  have n2 := n1.add (t3.mono (by norm_num)) (by norm_num) (by norm_num)
  have n3 := n2.sub (t4.mono (by norm_num)) (by norm_num) (by norm_num)
  have n4 := n3.sub (t5.mono (by norm_num)) (by norm_num) (by norm_num)
  have n5 := n4.sub (t6.mono (by norm_num)) (by norm_num) (by norm_num)
  refine n5.1.trans ?_
  have : 0 ≤ u * (s 0 * s 1 * s 2) ^ 2 := by positivity
  linarith

theorem inverse_entry (m : Mat3) (k : ℝ) (i j : Fin 3) :
    (mat3Scaled (cofactor m).transpose k).toMatrix i j = rnd ((cofactor m).toMatrix j i * k) := by
  match i with
  | 0 | 1 | 2 => match j with | 0 | 1 | 2 => rfl

/-- the cofactors, relative to the scales of the other rows and columns -/
theorem cofactor_sc {m' m : Mat3} {s : Fin 3 → ℝ} (hs : ∀ i, 0 < s i)
    (h : MSc m'.toMatrix m.toMatrix 1.001 (fun i j => s i * s j)) (i j : Fin 3) :
    Sc ((cofactor m').toMatrix i j) (m.cofactor.toMatrix i j) 4.02 (2 * ((s 0 * s 1 * s 2) ^ 2 / (s i * s j))) := by
  have h0 := (hs 0).ne'
  have h1 := (hs 1).ne'
  have h2 := (hs 2).ne'
  match i with
  | 0 => match j with
    | 0 => exact minor_sc (h 1 1) (h 2 2) (h 1 2) (h 2 1) (by field_simp) (by field_simp)
    | 1 => exact (minor_sc (h 1 0) (h 2 2) (h 2 0) (h 1 2) (by field_simp) (by field_simp)).neg
    | 2 => exact minor_sc (h 1 0) (h 2 1) (h 2 0) (h 1 1) (by field_simp) (by field_simp)
  | 1 => match j with
    | 0 => exact (minor_sc (h 0 1) (h 2 2) (h 2 1) (h 0 2) (by field_simp) (by field_simp)).neg
    | 1 => exact minor_sc (h 0 0) (h 2 2) (h 0 2) (h 2 0) (by field_simp) (by field_simp)
    | 2 => exact (minor_sc (h 0 0) (h 2 1) (h 0 1) (h 2 0) (by field_simp) (by field_simp)).neg
  | 2 => match j with
    | 0 => exact minor_sc (h 0 1) (h 1 2) (h 0 2) (h 1 1) (by field_simp) (by field_simp)
    | 1 => exact (minor_sc (h 0 0) (h 1 2) (h 1 0) (h 0 2) (by field_simp) (by field_simp)).neg
    | 2 => exact minor_sc (h 0 0) (h 1 1) (h 0 1) (h 1 0) (by field_simp) (by field_simp)

/-- the reciprocal of a computed determinant -/
theorem reciprocal_near {d d' ρ Q : ℝ} (hQ : 0 < Q) (hρ : 1e-12 ≤ ρ) (hρ1 : ρ ≤ 1) (hd : ρ * Q ≤ d)
    (h : |d' - d| ≤ 60.5 * u * Q) : d' ≠ 0 ∧ |rnd (1 / d') - 1 / d| ≤ 63 * u / ρ * (1 / d) := by
  have hu := u_tiny
  have hu0 := u_pos
  have hρ0 : 0 < ρ := lt_of_lt_of_le (by norm_num) hρ
  have hd0 : 0 < d := lt_of_lt_of_le (by positivity) hd
  obtain ⟨ε, hε⟩ : ∃ ε, ε = 60.5 * u / ρ := ⟨_, rfl⟩
  have hε0 : 0 < ε := by rw [hε]; positivity
  have hε1 : ε ≤ 0.0073 := by
    rw [hε, div_le_iff₀ hρ0]
    norm_num at hu hρ ⊢
    linarith
  have huε : u ≤ ε / 60.5 := by
    rw [hε, div_div, le_div_iff₀ (by positivity)]
    nlinarith
  have h1 : |d' - d| ≤ ε * d := by
    refine h.trans ?_
    have : 60.5 * u * Q = ε * (ρ * Q) := by rw [hε]; field_simp
    rw [this]; gcongr
  rw [_root_.abs_le] at h1
  have hd' : 0.99 * d ≤ d' := by nlinarith
  have hd'0 : 0 < d' := by nlinarith
  have h2 : |1 / d' - 1 / d| ≤ 1.01 * ε * (1 / d) := by
    have e : 1 / d' - 1 / d = (d - d') / d' * (1 / d) := by field_simp
    rw [e, abs_mul, abs_of_pos (show 0 < 1 / d by positivity)]
    gcongr
    rw [abs_div, abs_of_pos hd'0, div_le_iff₀ hd'0, _root_.abs_le]
    constructor <;> nlinarith
  refine ⟨hd'0.ne', ?_⟩
  have hi : 0 < 1 / d := by positivity
  have h3 := rabs h2 (M := 1.01 * (1 / d)) (by rw [abs_of_pos hi]; nlinarith)
  refine h3.trans ?_
  have e : 63 * u / ρ = 63 / 60.5 * ε := by rw [hε]; field_simp
  rw [e]
  have : 1.01 * ε + 1.01 * u ≤ 63 / 60.5 * ε := by norm_num at huε ⊢; linarith
  nlinarith

/-- the inverse exists in double precision as soon as the determinant is not below `10⁻¹²` of the product of the scales -/
theorem inverse_sc {m' m : Mat3} {s : Fin 3 → ℝ} {ρ : ℝ} (hs : ∀ i, 0 < s i)
    (h : MSc m'.toMatrix m.toMatrix 1.001 (fun i j => s i * s j)) (hρ : 1e-12 ≤ ρ) (hρ1 : ρ ≤ 1)
    (hd : ρ * (s 0 * s 1 * s 2) ^ 2 ≤ m.toMatrix.det) :
    ∃ inv, inverse m' = .ok inv ∧ (∀ i j, IsDouble (inv.toMatrix i j)) ∧
      ∀ i j, |inv.toMatrix i j - m.toMatrix⁻¹ i j| ≤ 138 * u / ρ ^ 2 * (1 / (s i * s j)) ∧
        |m.toMatrix⁻¹ i j| ≤ 2 / ρ * (1 / (s i * s j)) := by
  have hu := u_tiny
  have hu0 := u_pos
  have hρ0 : 0 < ρ := lt_of_lt_of_le (by norm_num) hρ
  have hQ : 0 < (s 0 * s 1 * s 2) ^ 2 := by have := hs 0; have := hs 1; have := hs 2; positivity
  obtain ⟨hdet, hinv, -⟩ := C02_inverse m
  rw [← hdet] at hd hinv
  have hd0 : 0 < m.determinant := lt_of_lt_of_le (by positivity) hd
  obtain ⟨m1, hm1, hm2, -⟩ := hinv hd0.ne'
  have hm : m.toMatrix⁻¹ = m1.toMatrix := Matrix.inv_eq_right_inv hm2
  have he : ∀ i j, m.toMatrix⁻¹ i j = m.cofactor.toMatrix j i * (1 / m.determinant) := by
    intro i j
    rw [hm]
    simp only [Mat3.inverse, pyDiv_ok hd0.ne', ok_bind, pure_eq_ok, Except.ok.injEq] at hm1
    rw [← hm1]
    match i with
    | 0 | 1 | 2 => match j with | 0 | 1 | 2 => rfl
  obtain ⟨h1, h2⟩ := reciprocal_near hQ hρ hρ1 hd (determinant_sc h)
  refine ⟨_, by rw [inverse, div_ok h1]; rfl, fun i j => by rw [inverse_entry]; exact isDouble_rnd _, fun i j => ?_⟩
  rw [inverse_entry, he]
  obtain ⟨c1, c2⟩ := cofactor_sc hs h j i
  have hi := hs i
  have hj := hs j
  generalize (cofactor m').toMatrix j i = c' at *
  generalize m.cofactor.toMatrix j i = c at *
  generalize rnd (1 / determinant m') = k at *
  obtain ⟨t, ht⟩ : ∃ t, t = 1 / (s i * s j) := ⟨_, rfl⟩
  have ht0 : 0 < t := by rw [ht]; positivity
  have hst : (s 0 * s 1 * s 2) ^ 2 / (s j * s i) = (s 0 * s 1 * s 2) ^ 2 * t := by rw [ht]; field_simp
  rw [hst] at c1 c2
  rw [← ht]
  generalize (s 0 * s 1 * s 2) ^ 2 = Q at *
  generalize m.determinant = d at *
  obtain ⟨r, hr⟩ : ∃ r, r = 1 / d := ⟨_, rfl⟩
  have hr0 : 0 < r := by rw [hr]; positivity
  rw [← hr] at h2 ⊢
  -- the scale of the inverse
  have hQr : Q * r ≤ 1 / ρ := by
    rw [hr, mul_one_div, div_le_div_iff₀ hd0 hρ0]
    linarith
  obtain ⟨v, hv⟩ : ∃ v, v = u / ρ := ⟨_, rfl⟩
  have hv0 : 0 < v := by rw [hv]; positivity
  have huv : u ≤ v := by rw [hv, le_div_iff₀ hρ0]; nlinarith
  have hv1 : v ≤ 0.00013 := by
    rw [hv, div_le_iff₀ hρ0]
    norm_num at hu hρ ⊢
    linarith
  rw [show 63 * u / ρ = 63 * v by rw [hv]; ring] at h2
  have hk : |k| ≤ 1.01 * r := by
    have := abs_sub_abs_le_abs_sub k r
    rw [abs_of_pos hr0] at this
    nlinarith
  have hE : 138 * u / ρ ^ 2 * t = 138 * v * (1 / ρ * t) := by rw [hv]; field_simp
  rw [hE, show 2 / ρ * t = 2 * (1 / ρ * t) by ring]
  have hg : Q * t * r ≤ 1 / ρ * t := by nlinarith
  generalize 1 / ρ * t = g at *
  have hg0 : 0 < g := lt_of_lt_of_le (by positivity) hg
  have f1 : |c * r| ≤ 2 * g := by
    rw [abs_mul, abs_of_pos hr0]
    nlinarith
  refine ⟨?_, f1⟩
  have f2 : |c' * k - c * r| ≤ 134.2 * v * g := by
    rw [show c' * k - c * r = (c' - c) * k + c * (k - r) by ring]
    refine (abs_add_le _ _).trans ?_
    rw [abs_mul, abs_mul]
    have g1 : |c' - c| * |k| ≤ 4.02 * u * (2 * (Q * t)) * (1.01 * r) := by gcongr
    have g2 : |c| * |k - r| ≤ 2 * (Q * t) * (63 * v * r) := by gcongr
    have g3 : u * (Q * t * r) ≤ v * g := by gcongr
    have g4 : v * (Q * t * r) ≤ v * g := by gcongr
    have g5 : 0 < v * g := by positivity
    linarith
  have f3 := rabs f2 (M := 2.1 * g) (by nlinarith)
  refine f3.trans ?_
  have : 2.1 * g * u ≤ 2.1 * g * v := by gcongr
  nlinarith

end Openspace.F64
