import Verif.Lemmas.DoubleIod
import Verif.Spec.Exponential
import Verif.Spec.Gauss
import Verif.Props.GaussConvergence

/-!
# The auxiliary numbers of Gauss's method in double precision
-/

namespace Openspace

namespace F64

open Real

theorem abs_dot_le (a b : Vec3) : |a.x * b.x| + |a.y * b.y| + |a.z * b.z| ≤ a.magnitude * b.magnitude := by
  have h1 := Vec3.magnitude_nonneg a
  have h2 := Vec3.magnitude_nonneg b
  refine (abs_le_of_sq_le_sq' ?_ (by positivity)).2
  rw [mul_pow, Vec3.magnitude_sq_dot, Vec3.magnitude_sq_dot, abs_mul, abs_mul, abs_mul]
  simp only [Vec3.dot]
  rw [← abs_mul_abs_self a.x, ← abs_mul_abs_self a.y, ← abs_mul_abs_self a.z, ← abs_mul_abs_self b.x, ← abs_mul_abs_self b.y,
    ← abs_mul_abs_self b.z]
  nlinarith [sq_nonneg (|a.x| * |b.y| - |a.y| * |b.x|), sq_nonneg (|a.x| * |b.z| - |a.z| * |b.x|),
    sq_nonneg (|a.y| * |b.z| - |a.z| * |b.y|)]

/-- the error of `Vector3D.dot` -/
theorem dot_error (a b : Vec3) : |dot a b - a.dot b| ≤ 3.1 * u * (a.magnitude * b.magnitude) := by
  have hu := u_pos
  have hu' := u_tiny
  have us : u ≤ 0.00001 := hu'.trans (by norm_num)
  have h := abs_dot_le a b
  have h1 := rnd_u (a.x * b.x)
  have h2 := rnd_u (a.y * b.y)
  have h3 := rnd_u (a.z * b.z)
  obtain ⟨S, hS⟩ : ∃ S, S = a.magnitude * b.magnitude := ⟨_, rfl⟩
  rw [← hS] at h ⊢
  have k1 := abs_nonneg (a.x * b.x)
  have k2 := abs_nonneg (a.y * b.y)
  have k3 := abs_nonneg (a.z * b.z)
  have S0 : 0 ≤ S := by linarith
  have q1 : |rnd (a.x * b.x) + rnd (a.y * b.y) - (a.x * b.x + a.y * b.y)| ≤ u * (|a.x * b.x| + |a.y * b.y|) := by
    rw [show rnd (a.x * b.x) + rnd (a.y * b.y) - (a.x * b.x + a.y * b.y) =
      (rnd (a.x * b.x) - a.x * b.x) + (rnd (a.y * b.y) - a.y * b.y) by ring]
    refine (abs_add_le _ _).trans ?_
    linarith
  have q2 := rabs q1 (M := 1.001 * S) (by
    have := abs_add_le (a.x * b.x) (a.y * b.y)
    have : u * (|a.x * b.x| + |a.y * b.y|) ≤ 0.00001 * (|a.x * b.x| + |a.y * b.y|) := by gcongr
    linarith)
  have q3 : |rnd (rnd (a.x * b.x) + rnd (a.y * b.y)) + rnd (a.z * b.z) - a.dot b| ≤ 2.002 * u * S := by
    rw [show rnd (rnd (a.x * b.x) + rnd (a.y * b.y)) + rnd (a.z * b.z) - a.dot b =
      (rnd (rnd (a.x * b.x) + rnd (a.y * b.y)) - (a.x * b.x + a.y * b.y)) + (rnd (a.z * b.z) - a.z * b.z) by simp only [Vec3.dot]; ring]
    refine (abs_add_le _ _).trans ?_
    have : u * (|a.x * b.x| + |a.y * b.y| + |a.z * b.z|) ≤ u * S := by gcongr
    have : 0 ≤ u * S := by positivity
    linarith
  have q4 := rabs q3 (M := 1.001 * S) (by
    have e1 : |a.dot b| ≤ S := by
      have := abs_add_le (a.x * b.x + a.y * b.y) (a.z * b.z)
      have := abs_add_le (a.x * b.x) (a.y * b.y)
      simp only [Vec3.dot]
      linarith
    have : u * S ≤ 0.00001 * S := by gcongr
    linarith)
  have : 0 ≤ u * S := by positivity
  show |rnd (rnd (rnd (a.x * b.x) + rnd (a.y * b.y)) + rnd (a.z * b.z)) - a.dot b| ≤ _
  linarith

/-- the positions are less than 54 degrees apart -/
theorem short_transfer {ra rb : Vec3} (ha : ra ≠ ⟨0, 0, 0⟩) (hb : rb ≠ ⟨0, 0, 0⟩) (hk : 0 < Spec.gaussK ra rb)
    (hl : Spec.gaussL ra rb ≤ 0.06) : 0.59 * (ra.magnitude * rb.magnitude) ≤ ra.dot rb := by
  have h1 : 0 < ra.magnitude := Vec3.magnitude_pos.mpr ha
  have h2 : 0 < rb.magnitude := Vec3.magnitude_pos.mpr hb
  have hP : 0 < ra.magnitude * rb.magnitude := by positivity
  have hb0 : 0 ≤ 2 * (ra.magnitude * rb.magnitude + ra.dot rb) := by
    by_contra h
    rw [Spec.gaussK, sqrt_eq_zero'.mpr (by linarith)] at hk
    exact lt_irrefl _ hk
  have hk2 : Spec.gaussK ra rb ^ 2 = 2 * (ra.magnitude * rb.magnitude + ra.dot rb) := sq_sqrt hb0
  unfold Spec.gaussL at hl
  have q1 : (ra.magnitude + rb.magnitude) / (2 * Spec.gaussK ra rb) ≤ 0.56 := by linarith
  rw [div_le_iff₀ (by positivity)] at q1
  have q2 : (ra.magnitude + rb.magnitude) ^ 2 ≤ (1.12 * Spec.gaussK ra rb) ^ 2 := by
    gcongr
    linarith
  rw [mul_pow, hk2] at q2
  norm_num at q2 ⊢
  nlinarith [sq_nonneg (ra.magnitude - rb.magnitude)]

theorem tau_near (t1 t2 : ℝ) : Near (gaussTau t1 t2) (√Earth.MU * (t2 - t1) * 86400) 5.1 := by
  have h1 : Near (rnd (sqrtNN mu)) √Earth.MU 2.01 :=
    ((near_sqrt mu_near mu_pos.le mu_pos'.le).round' (by norm_num) (by norm_num)).mono (by norm_num)
  exact ((h1.mulr (near_rnd (t2 - t1)) (by norm_num) (by norm_num) (by norm_num) (by norm_num)).mulr (Near.refl 86400) (by norm_num)
    (by norm_num) (by norm_num) (by norm_num)).mono (by norm_num)

/-- the auxiliary numbers computed for two positions -/
theorem numbers_near {lib : Libm} (hpow : Spec.PowAccurate lib) {ra rb : Vec3} {t1 t2 dt : ℝ} (hdt : dt = (t2 - t1) * 86400)
    (hk : 0 < Spec.gaussK ra rb) (ha : ra ≠ ⟨0, 0, 0⟩) (hb : rb ≠ ⟨0, 0, 0⟩) (hl : Spec.gaussL ra rb ≤ 0.06) :
    ∃ m l, gaussNumbers lib ra rb (magnitude ra) (magnitude rb) (gaussTau t1 t2) = .ok (m, l) ∧
      Near m (Spec.gaussM ra rb dt) 45 ∧ |l - Spec.gaussL ra rb| ≤ 10.5 * u := by
  have hu := u_pos
  have hu' := u_tiny
  have us : u ≤ 0.00001 := hu'.trans (by norm_num)
  have hd := short_transfer ha hb hk hl
  have h1 : 0 < ra.magnitude := Vec3.magnitude_pos.mpr ha
  have h2 : 0 < rb.magnitude := Vec3.magnitude_pos.mpr hb
  have n1 := magnitude_near ra
  have n2 := magnitude_near rb
  have n3 := n1.mulr n2 (by norm_num) (by norm_num) (by norm_num) (by norm_num)
  have d1 := dot_error ra rb
  have sE : Spec.gaussK ra rb = √(2 * (ra.magnitude * rb.magnitude + ra.dot rb)) := rfl
  obtain ⟨P, hP⟩ : ∃ P, P = ra.magnitude * rb.magnitude := ⟨_, rfl⟩
  have P0 : 0 < P := by rw [hP]; positivity
  rw [← hP] at hd d1 n3 sE
  have n4 : Near (rnd (magnitude ra * magnitude rb) + dot ra rb) (P + ra.dot rb) 7.9 := by
    unfold Near at n3 ⊢
    rw [abs_of_pos P0] at n3
    rw [abs_of_pos (show 0 < P + ra.dot rb by linarith)]
    rw [show rnd (magnitude ra * magnitude rb) + dot ra rb - (P + ra.dot rb) =
      (rnd (magnitude ra * magnitude rb) - P) + (dot ra rb - ra.dot rb) by ring]
    refine (abs_add_le _ _).trans ?_
    have : u * (1.59 * P) ≤ u * (P + ra.dot rb) := by gcongr; linarith
    linarith [show 0 < u * P by positivity]
  have n5 := ((Near.refl 2).mulr (n4.round' (by norm_num) (by norm_num)) le_rfl (by norm_num) (by norm_num) (by norm_num)).mono (l := 10) (by norm_num)
  have B0 : 0 < 2 * (P + ra.dot rb) := by linarith
  obtain ⟨B, hB⟩ : ∃ B, B = rnd (2 * rnd (rnd (magnitude ra * magnitude rb) + dot ra rb)) := ⟨_, rfl⟩
  rw [← hB] at n5
  have B'0 : 0 < B := by
    have h := n5
    unfold Near at h
    rw [abs_of_pos B0] at h
    have := (_root_.abs_le.mp h).1
    have : 10 * u * (2 * (P + ra.dot rb)) ≤ 10 * 0.00001 * (2 * (P + ra.dot rb)) := by gcongr
    linarith
  have n6 := near_sqrt n5 B0.le B'0.le
  rw [← sE] at n6
  obtain ⟨k, hkk⟩ : ∃ k, k = Spec.gaussK ra rb := ⟨_, rfl⟩
  rw [← hkk] at n6 hk
  -- the power
  have p1 := ((n6.mul' n6 (by norm_num) (by norm_num) (by norm_num) (by norm_num)).mul' n6 (by norm_num) (by norm_num) (by norm_num)
    (by norm_num))
  have p2 := (near_inv' p1 (by positivity) (by norm_num) (by norm_num)).2
  have eB : 1 / (√B * √B * √B) = B ^ (-1.5 : ℝ) := by
    have s0 : 0 < √B := sqrt_pos.mpr B'0
    conv_rhs => rw [← sq_sqrt B'0.le]
    rw [← rpow_natCast, ← rpow_mul s0.le, show ((2 : ℕ) : ℝ) * (-1.5) = -((3 : ℕ) : ℝ) by norm_num, rpow_neg s0.le, rpow_natCast,
      one_div]
    congr 1; ring
  rw [eB] at p2
  have p3 : Near (lib.pow B (-1.5)) (1 / (k * k * k)) 32.3 := by
    have w1 := hpow B (-1.5) B'0
    rw [show (1 : ℝ) / 2 ^ 52 = 2 * u by unfold u; norm_num] at w1
    have w2 : 0 < B ^ (-1.5 : ℝ) := rpow_pos_of_pos B'0 _
    unfold Near at p2 ⊢
    have w3 := abs_sub_le (lib.pow B (-1.5)) (B ^ (-1.5 : ℝ)) (1 / (k * k * k))
    have w4 : 0 < 1 / (k * k * k) := by positivity
    obtain ⟨y, hy⟩ : ∃ y, y = B ^ (-1.5 : ℝ) := ⟨_, rfl⟩
    obtain ⟨K, hK⟩ : ∃ K, K = 1 / (k * k * k) := ⟨_, rfl⟩
    rw [← hy] at w1 w2 w3 p2
    rw [← hK] at w3 w4 p2 ⊢
    rw [abs_of_pos w4] at p2 ⊢
    have w5 : y ≤ 1.001 * K := by
      have := (_root_.abs_le.mp p2).2
      have : u * K ≤ 0.00001 * K := by gcongr
      linarith
    have w6 : 2 * u * y ≤ 2 * u * (1.001 * K) := by gcongr
    linarith [show 0 < u * K by positivity]
  have t1' := tau_near t1 t2
  have m1 := (t1'.mulr t1' (by norm_num) (by norm_num) (by norm_num) (by norm_num)).mulr p3 (by norm_num) (by norm_num) (by norm_num) (by norm_num)
  -- the other number
  obtain ⟨s, es, s0, ns⟩ := n5.sqrtr B0.le B'0.le (by norm_num) (by norm_num)
  rw [← sE, ← hkk] at ns
  have l1 := (n1.add n2 h1.le h2.le).round' (by norm_num) (by norm_num)
  have l2 := (Near.refl 2).mulr ns le_rfl (by norm_num) (by norm_num) (by norm_num)
  obtain ⟨q, eq, -, nq⟩ := l1.divr l2 (by positivity) (by norm_num) (by norm_num) (by norm_num) (by norm_num)
  refine ⟨rnd (rnd (gaussTau t1 t2 * gaussTau t1 t2) * lib.pow B (-1.5)), rnd (q - 0.5), ?_, ?_, ?_⟩
  · simp only [gaussNumbers, ← hB, powNeg15, if_neg B'0.ne', if_neg (not_lt.mpr B'0.le), ok_bind, es, eq]
    rfl
  · have : Spec.gaussM ra rb dt = √Earth.MU * (t2 - t1) * 86400 * (√Earth.MU * (t2 - t1) * 86400) * (1 / (k * k * k)) := by
      rw [Spec.gaussM, ← hkk, hdt]
      conv_lhs => rw [← sq_sqrt mu_pos.le]
      ring
    rw [this]; exact m1.mono (by norm_num)
  · have lE : Spec.gaussL ra rb = (ra.magnitude + rb.magnitude) / (2 * k) - 1 / 2 := by rw [hkk]; rfl
    rw [lE] at hl ⊢
    obtain ⟨z, hz⟩ : ∃ z, z = (ra.magnitude + rb.magnitude) / (2 * k) := ⟨_, rfl⟩
    have z0 : 0 < z := by rw [hz]; positivity
    rw [← hz] at hl nq ⊢
    unfold Near at nq
    rw [abs_of_pos z0] at nq
    have hlo : 0 ≤ z - 1 / 2 := by
      have := Gauss.L_nonneg (ra := ra) (rb := rb) (by rw [← hkk]; exact hk)
      rw [lE, ← hz] at this; exact this
    have e1 : |q - 0.5 - (z - 1 / 2)| ≤ 10.25 * u := by
      rw [show q - 0.5 - (z - 1 / 2) = q - z by ring]
      have : u * z ≤ u * 0.56 := by gcongr; linarith
      linarith
    have := rabs e1 (M := 0.061) (by rw [abs_of_nonneg hlo]; linarith)
    linarith

/-- the start value -/
theorem start_near {m l : ℝ} (hm0 : 0 < m) (hl : 0 ≤ l) : ∃ n, gaussStart m l = .ok n ∧ Near n (Spec.gaussStart m l) 12 := by
  have a1 := ((Near.refl l).mono (l := 1) (by norm_num)).addr (near_rnd (5 / 6)) hl (by norm_num) (by norm_num) (by norm_num)
  obtain ⟨q, eq, -, nq⟩ := (Near.refl m).divr a1 (by positivity) le_rfl (by norm_num) (by norm_num) (by norm_num)
  have a2 := (near_rnd (44 / 9)).mulr nq (by norm_num) (by norm_num) (by norm_num) (by norm_num)
  have a3 := ((Near.refl 1).mono (l := 6.1) (by norm_num)).addr (a2.mono (by norm_num)) (by norm_num) (by positivity) (by norm_num) (by norm_num)
  obtain ⟨s, es, -, ns⟩ := a3.sqrtr (by positivity) (a3.nonneg (by positivity) (by norm_num)) (by norm_num) (by norm_num)
  have a4 := (near_rnd (10 / 22)).mulr ns (by norm_num) (by norm_num) (by norm_num) (by norm_num)
  have a5 := ((near_rnd (12 / 22)).mono (l := 10.2) (by norm_num)).addr (a4.mono (by norm_num)) (by norm_num) (by positivity) (by norm_num)
    (by norm_num)
  exact ⟨_, by simp only [gaussStart, eq, ok_bind, es]; rfl, a5.mono (by norm_num)⟩

/-- the root depends little on the auxiliary numbers -/
theorem root_shift {m l m' l' r r' : ℝ} (hm : m ≤ 1 / 10) (hl : 0 ≤ l) (hlm : 25 * l < 16 * m) (hm' : m' ≤ 1 / 10) (hl' : 0 ≤ l')
    (hlm' : 25 * l' < 16 * m') (h1 : |m' - m| ≤ 4.6 * u) (h2 : |l' - l| ≤ 10.5 * u) (hr : 9 / 10 ≤ r ∧ r ≤ 5 / 4)
    (hr' : 1 ≤ r' ∧ r' ≤ 113 / 100) (h : Gauss.F m l r = 0) (h' : Gauss.F m' l' r' = 0) : |r' - r| ≤ 15 * u := by
  have hu := u_pos
  -- the values of the two functions at the second root
  obtain ⟨g0, g1, g2⟩ := Gauss.angle_mem hm hl hlm (n := r') (by linarith) (by linarith)
  obtain ⟨k0, k1, k2⟩ := Gauss.angle_mem hm' hl' hlm' (n := r') (by linarith) (by linarith)
  obtain ⟨x0, x1⟩ := Gauss.X_mem hm hl hlm (n := r') (by linarith) (by linarith)
  have hmp := Gauss.m_pos hl' hlm'
  have rp : 1 ≤ r' ^ 2 := by nlinarith
  have dx : |m' / r' ^ 2 - m / r' ^ 2| ≤ 4.6 * u := by
    rw [← sub_div, abs_div, abs_of_pos (show 0 < r' ^ 2 by positivity)]
    exact (div_le_self (abs_nonneg _) rp).trans h1
  have xm : |m' / r' ^ 2| ≤ 1 / 10 := by
    rw [abs_of_nonneg (by positivity)]
    exact (div_le_self hmp.le rp).trans hm'
  have dX : |Gauss.X (2 * arcsin √(m' / r' ^ 2 - l')) - Gauss.X (2 * arcsin √(m / r' ^ 2 - l))| ≤ 46 * u := by
    have dw : |(m' / r' ^ 2 - l') - (m / r' ^ 2 - l)| ≤ 15.1 * u := by
      rw [show (m' / r' ^ 2 - l') - (m / r' ^ 2 - l) = (m' / r' ^ 2 - m / r' ^ 2) - (l' - l) by ring]
      refine (abs_sub _ _).trans ?_
      linarith
    rw [← k2, ← g2] at dw
    have key : |Gauss.X (2 * arcsin √(m' / r' ^ 2 - l')) - Gauss.X (2 * arcsin √(m / r' ^ 2 - l))| ≤
        3 * |sin (2 * arcsin √(m' / r' ^ 2 - l') / 2) ^ 2 - sin (2 * arcsin √(m / r' ^ 2 - l) / 2) ^ 2| := by
      generalize 2 * arcsin √(m' / r' ^ 2 - l') = a at *
      generalize 2 * arcsin √(m / r' ^ 2 - l) = b at *
      rcases le_total b a with hab | hab
      · obtain ⟨p1, p2⟩ := Gauss.X_mono g0 hab k1
        rw [abs_of_nonneg (by linarith)]
        exact p2.trans (by gcongr; exact le_abs_self _)
      · obtain ⟨p1, p2⟩ := Gauss.X_mono k0 hab g1
        rw [abs_of_nonpos (by linarith), neg_sub, abs_sub_comm (sin (a / 2) ^ 2)]
        exact p2.trans (by gcongr; exact le_abs_self _)
    linarith
  have dF : |Gauss.F m' l' r' - Gauss.F m l r'| ≤ 13 * u := by
    simp only [Gauss.F]
    generalize Gauss.X (2 * arcsin √(m' / r' ^ 2 - l')) = a at *
    generalize Gauss.X (2 * arcsin √(m / r' ^ 2 - l)) = b at *
    rw [show 1 - r' + m' / r' ^ 2 * a - (1 - r' + m / r' ^ 2 * b) = m' / r' ^ 2 * (a - b) + (m' / r' ^ 2 - m / r' ^ 2) * b by ring]
    refine (abs_add_le _ _).trans ?_
    rw [abs_mul, abs_mul, abs_of_nonneg x0]
    have p1 : |m' / r' ^ 2| * |a - b| ≤ 1 / 10 * (46 * u) := by gcongr
    have p2 : |m' / r' ^ 2 - m / r' ^ 2| * b ≤ 4.6 * u * (8 / 5) := by gcongr
    linarith
  rw [h', zero_sub, abs_neg] at dF
  rcases le_total r r' with hrr | hrr
  · obtain ⟨s1, -⟩ := Gauss.F_slope hm hl hlm hr.1 hrr (by linarith)
    rw [h, zero_sub] at s1
    have := neg_le_abs (Gauss.F m l r')
    rw [abs_of_nonneg (by linarith)]; linarith
  · obtain ⟨s1, -⟩ := Gauss.F_slope hm hl hlm (by linarith) hrr hr.2
    rw [h, sub_zero] at s1
    have := le_abs_self (Gauss.F m l r')
    rw [abs_of_nonpos (by linarith)]; linarith

/-- the loop from the start values -/
theorem solve_from_start {lib : Libm} (hlib : Spec.UlpAccurate lib) {m l n : ℝ} (hm0 : 0 < m) (hm : m ≤ 1 / 10) (hl : 0 ≤ l)
    (hlm : 5 * l ≤ 3 * m) (hn : gaussStart m l = .ok n) {fuel : ℕ} (hf : 60 ≤ fuel) :
    ∃ r c, (1 ≤ r ∧ r ≤ 113 / 100) ∧ Gauss.F m l r = 0 ∧ solveNu lib m l fuel (rnd (n + rnd 0.1)) n = .ok c ∧ |c - r| ≤ 1.7e-12 := by
  have hu := u_pos
  have hu' := u_tiny
  have us : u ≤ 0.00001 := hu'.trans (by norm_num)
  obtain ⟨r, r0, r1, hr⟩ := Gauss.F_root hm hl (by linarith : 25 * l < 16 * m)
  obtain ⟨s0, s1⟩ := Gauss.start_mem hm hl (by linarith : 25 * l < 16 * m)
  obtain ⟨n', e, hn'⟩ := start_near hm0 hl
  rw [hn, Except.ok.injEq] at e
  subst e
  unfold Near at hn'
  rw [abs_of_pos (show 0 < Spec.gaussStart m l by linarith)] at hn'
  have b1 : 12 * u * Spec.gaussStart m l ≤ 12 * 0.00001 * 1.134 := by gcongr; norm_num at s1 ⊢; exact s1
  obtain ⟨n1, n2⟩ := _root_.abs_le.mp hn'
  have nlo : 0.999 ≤ n := by norm_num at b1 ⊢; linarith
  have nhi : n ≤ 1.1345 := by norm_num at b1 ⊢; linarith
  have t1 := rnd_u 0.1
  rw [abs_of_pos (show (0 : ℝ) < 0.1 by norm_num)] at t1
  have t2 := rabs (x := n + 0.1) (y := n + rnd 0.1) (E := u * 0.1) (M := 1.3) (by
    rwa [show n + rnd 0.1 - (n + 0.1) = rnd 0.1 - 0.1 by ring]) (by
    rw [abs_of_pos (by linarith)]; linarith)
  obtain ⟨t3, t4⟩ := _root_.abs_le.mp t2
  have hnr : |n - r| ≤ 14 / 100 := by rw [_root_.abs_le]; constructor <;> linarith
  obtain ⟨c, ec, hc⟩ := solveNu_near hlib hm0 hm hl hlm ⟨r0, r1⟩ hr 56 (a := rnd (n + rnd 0.1)) (b := n) (fuel := fuel) (by omega)
    ⟨by linarith, by linarith⟩ ⟨by linarith, by linarith⟩ hnr (by
      rw [abs_sub_comm, abs_of_nonneg (by linarith)]
      have : (0.999e-12 : ℝ) ≤ 0.09 := by norm_num
      linarith) (by
      calc (|n - r| - 150 * u) * 0.621 ^ 56 ≤ 14 / 100 * 0.621 ^ 56 := by gcongr; linarith
        _ ≤ 5e-13 := by norm_num)
  exact ⟨r, c, ⟨r0, r1⟩, hr, ec, hc⟩

end F64

end Openspace
