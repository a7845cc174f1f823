import Verif.Lemmas.DoubleFrames
import Verif.Props.HillPosition
import Mathlib.Analysis.SpecialFunctions.Trigonometric.InverseDeriv

/-! # C113: Hill coordinates in double precision -/

namespace Openspace

open Real

namespace F64

/-! ## inverse functions -/

theorem arcsin_spread {a b : ℝ} (ha : |a| ≤ 867 / 1000) (hb : |b| ≤ 867 / 1000) :
    |arcsin a - arcsin b| ≤ 2.01 * |a - b| := by
  have hd : ∀ x ∈ Set.Icc (-(867 / 1000) : ℝ) (867 / 1000), DifferentiableAt ℝ arcsin x := by
    intro x hx
    exact differentiableAt_arcsin.mpr ⟨by linarith [hx.1], by linarith [hx.2]⟩
  have hb' : ∀ x ∈ Set.Icc (-(867 / 1000) : ℝ) (867 / 1000), ‖deriv arcsin x‖ ≤ 2.01 := by
    intro x hx
    have h1 : x ^ 2 ≤ (867 / 1000) ^ 2 := by
      rw [← sq_abs]; have := abs_le.mpr ⟨hx.1, hx.2⟩; gcongr
    have h2 : (1 / 2.01 : ℝ) ≤ √(1 - x ^ 2) := by
      apply le_sqrt_of_sq_le
      norm_num at h1 ⊢; linarith
    rw [deriv_arcsin, Real.norm_eq_abs, abs_of_nonneg (by positivity), div_le_iff₀ (lt_of_lt_of_le (by norm_num) h2)]
    norm_num at h2 ⊢; linarith
  have := (convex_Icc (-(867 / 1000) : ℝ) (867 / 1000)).norm_image_sub_le_of_norm_deriv_le hd hb'
    (abs_le.mp hb) (abs_le.mp ha)
  simpa [Real.norm_eq_abs] using this

theorem arctan_spread (a b : ℝ) : |arctan a - arctan b| ≤ |a - b| := by
  have hd : ∀ x ∈ Set.univ, DifferentiableAt ℝ arctan x := fun x _ => differentiable_arctan x
  have hb' : ∀ x ∈ (Set.univ : Set ℝ), ‖deriv arctan x‖ ≤ 1 := by
    intro x _
    rw [Real.deriv_arctan, Real.norm_eq_abs, abs_of_nonneg (by positivity), div_le_one (by positivity)]
    nlinarith [sq_nonneg x]
  have := convex_univ.norm_image_sub_le_of_norm_deriv_le hd hb' (Set.mem_univ b) (Set.mem_univ a)
  simpa [Real.norm_eq_abs] using this

/-- the direction in the orbit plane -/
theorem planar_near {lib : Libm} (hlib : Spec.Atan2Accurate lib) {X Y X' Y' r : ℝ} (hr : 0 < r) (hX : r / 2 ≤ X)
    (hX' : Sc X' X 83.2 r) (hY : |Y| ≤ 87 / 100 * r) (hY' : Sc Y' Y 83.2 r) :
    |lib.atan2 Y' X' - pyAtan2 Y X| ≤ 465 * u := by
  have hu := u_tiny
  have hu0 := u_pos
  have hXp : 0 < X := by linarith
  have h1 := hX'.1
  have h2 := hY'.1
  have hX2 : 0.49999 * r ≤ X' := by
    have := (abs_le.mp h1).1
    have : 83.2 * u * r ≤ 0.00001 * r := by gcongr; norm_num at hu ⊢; linarith
    norm_num at this ⊢
    linarith
  have hX'p : 0 < X' := by linarith
  have h3 := hlib Y' X'
  have h4 : |pyAtan2 Y' X' - pyAtan2 Y X| ≤ 460.9 * u := by
    rw [pyAtan2_of_pos hX'p, pyAtan2_of_pos hXp]
    refine (arctan_spread _ _).trans ?_
    rw [show Y' / X' - Y / X = ((Y' - Y) - Y * (X' - X) / X) / X' by field_simp; ring, abs_div, abs_of_pos hX'p,
      div_le_iff₀ hX'p]
    have t := abs_sub (Y' - Y) (Y * (X' - X) / X)
    have t2 : |Y * (X' - X) / X| ≤ 1.74 * (83.2 * u * r) := by
      rw [abs_div, abs_mul, abs_of_pos hXp, div_le_iff₀ hXp]
      have : |Y| * |X' - X| ≤ (87 / 100 * r) * (83.2 * u * r) := by gcongr
      have : (r / 2) * (1.74 * (83.2 * u * r)) ≤ X * (1.74 * (83.2 * u * r)) := by gcongr
      norm_num at *
      linarith
    have t3 : 460.9 * u * (0.49999 * r) ≤ 460.9 * u * X' := by gcongr
    have h5 : 0 ≤ u * r := by positivity
    norm_num at *
    linarith
  have h5 := abs_sub_le (lib.atan2 Y' X') (pyAtan2 Y' X') (pyAtan2 Y X)
  have hu2 : (1 : ℝ) / 2 ^ 51 = 4 * u := by unfold u; norm_num
  rw [hu2] at h3
  have e : pyAtan2 Y' X' = Complex.arg ⟨X', Y'⟩ := rfl
  rw [e] at h5 h4
  linarith

/-- a function of the library that is accurate and not steeper than one -/
theorem Sc.lip {f g : ℝ → ℝ} (hf : ∀ x, |g x - f x| ≤ 1 / 2 ^ 52) (hl : ∀ x y, |f x - f y| ≤ |x - y|)
    (h1 : ∀ x, |f x| ≤ 1) {x y e : ℝ} (h : |y - x| ≤ e * u) : Sc (g y) (f x) (e + 2) 1 := by
  have hu2 : (1 : ℝ) / 2 ^ 52 = 2 * u := by unfold u; norm_num
  have t1 := hf y
  rw [hu2] at t1
  refine ⟨?_, h1 x⟩
  have := abs_sub_le (g y) (f y) (f x)
  have := hl y x
  linarith

theorem Sc.cos {lib : Libm} (hlib : Spec.Accurate lib) {x y e : ℝ} (h : |y - x| ≤ e * u) :
    Sc (lib.cos y) (Real.cos x) (e + 2) 1 := Sc.lip hlib.cos cos_lipschitz abs_cos_le_one h

theorem Sc.sin {lib : Libm} (hlib : Spec.Accurate lib) {x y e : ℝ} (h : |y - x| ≤ e * u) :
    Sc (lib.sin y) (Real.sin x) (e + 2) 1 := Sc.lip hlib.sin sin_lipschitz abs_sin_le_one h

/-- the angle out of the orbit plane -/
theorem elevation_near {lib : Libm} (hlib : Spec.AsinAccurate lib) {S S' : ℝ} (h : |S' - S| ≤ 88.5 * u)
    (hS : |S| ≤ 8661 / 10000) : |S'| ≤ 1 ∧ |lib.asin S' - arcsin S| ≤ 180 * u := by
  have hu := u_tiny
  have hu0 := u_pos
  have h1 := abs_sub_abs_le_abs_sub S' S
  have h2 : |S'| ≤ 867 / 1000 := by norm_num at hu h ⊢; linarith
  have h3 : |S'| ≤ 1 := by linarith
  refine ⟨h3, ?_⟩
  have h4 := hlib S' h3
  have hu2 : (1 : ℝ) / 2 ^ 52 = 2 * u := by unfold u; norm_num
  rw [hu2] at h4
  have h5 := arcsin_spread h2 (by linarith : |S| ≤ 867 / 1000)
  have h6 := abs_sub_le (lib.asin S') (arcsin S') (arcsin S)
  norm_num at *
  linarith

/-- the three components of the velocity in the turned frame -/
theorem sez_near {sp' cp' sl' cl' sp cp sl cl V : ℝ} {W W' : Vec3} (h1 : Sc sp' sp 88.5 1) (h2 : Sc cp' cp 182 1)
    (h3 : Sc sl' sl 467 1) (h4 : Sc cl' cl 467 1) (e1 : sp ^ 2 + cp ^ 2 = 1) (e2 : sl ^ 2 + cl ^ 2 = 1)
    (hW : W.magnitude ≤ V) (w1 : Sc W'.x W.x 83.2 V) (w2 : Sc W'.y W.y 83.2 V) (w3 : Sc W'.z W.z 83.2 V) :
    Sc (mulVec (rswSez sp' cp' sl' cl') W').x ((Openspace.rswSez sp cp sl cl).mulVec W).x 1930 V ∧
    Sc (mulVec (rswSez sp' cp' sl' cl') W').y ((Openspace.rswSez sp cp sl cl).mulVec W).y 1661 V ∧
    Sc (mulVec (rswSez sp' cp' sl' cl') W').z ((Openspace.rswSez sp cp sl cl).mulVec W).z 2211 V := by
  have hu0 := u_pos
  have bound : ∀ m : Vec3, m.dot m = 1 → |m.dot W| ≤ V := by
    intro m hm
    have h := Vec3.cauchy m W
    rw [Vec3.magnitude_of_dot (r := 1) (by norm_num) (by rw [hm]; norm_num), one_mul] at h
    exact h.trans hW
  have f : ∀ {k s : ℝ}, 0 ≤ s → Sc 0 0 k s ∨ k < 0 := by
    intro k s hs
    rcases le_or_gt 0 k with h | h
    · left
      refine ⟨?_, by simpa using hs⟩
      simp only [sub_self, abs_zero]
      positivity
    · exact .inr h
  have z : Sc 0 0 467 1 := (f zero_le_one).resolve_right (by norm_num)
  refine ⟨?_, ?_, ?_⟩
  · have a1 := (h1.mul h4 (by norm_num) (by norm_num) (by norm_num) (by norm_num))
    have a2 := (h1.mul h3 (by norm_num) (by norm_num) (by norm_num) (by norm_num))
    rw [mul_one] at a1 a2
    have := Sc.dot (a' := (rswSez sp' cp' sl' cl').row1) (a := (Openspace.rswSez sp cp sl cl).row1) a1 a2
      (h2.neg.mono (by norm_num)) w1 w2 w3 (by norm_num) (by norm_num) (by norm_num) (by norm_num)
    rw [one_mul] at this
    refine this.tighten (bound _ ?_) (by norm_num)
    simp only [Openspace.rswSez, Vec3.dot]; linear_combination sp ^ 2 * e2 + e1
  · have := Sc.dot (a' := (rswSez sp' cp' sl' cl').row2) (a := (Openspace.rswSez sp cp sl cl).row2) h3.neg h4
      z w1 w2 w3 (by norm_num) (by norm_num) (by norm_num) (by norm_num)
    rw [one_mul] at this
    refine this.tighten (bound _ ?_) (by norm_num)
    simp only [Openspace.rswSez, Vec3.dot]; linear_combination e2
  · have a1 := (h2.mul h4 (by norm_num) (by norm_num) (by norm_num) (by norm_num))
    have a2 := (h2.mul h3 (by norm_num) (by norm_num) (by norm_num) (by norm_num))
    rw [mul_one] at a1 a2
    have := Sc.dot (a' := (rswSez sp' cp' sl' cl').row3) (a := (Openspace.rswSez sp cp sl cl).row3) a1 a2
      (h1.mono (by norm_num)) w1 w2 w3 (by norm_num) (by norm_num) (by norm_num) (by norm_num)
    rw [one_mul] at this
    refine this.tighten (bound _ ?_) (by norm_num)
    simp only [Openspace.rswSez, Vec3.dot]; linear_combination cp ^ 2 * e2 + e1

/-- the rates -/
theorem rates_near {R R' r r' cp cp' V Vo : ℝ} {q q' T T' : Vec3} (hR : 0 < R) (hr : 0 < r) (hRr : R ≤ 2 * r)
    (hR' : Near R' R 4.2) (hr' : Near r' r 4.2) (hcp : 1 / 2 ≤ cp) (hcp' : Sc cp' cp 182 1)
    (q1 : Sc q'.x q.x 1930 V) (q2 : Sc q'.y q.y 1661 V) (q3 : Sc q'.z q.z 2211 V)
    (t1 : Sc T'.x T.x 83.2 Vo) (t2 : Sc T'.y T.y 83.2 Vo) :
    R' ≠ 0 ∧ r' ≠ 0 ∧ rnd (r' * cp') ≠ 0 ∧
    Sc (rnd (q'.z - T'.x)) (q.z - T.x) 2050 (4 * (V + Vo)) ∧
    Sc (rnd (R' * rnd (rnd (q'.y / rnd (r' * cp')) - rnd (T'.y / R')))) (R * (q.y / (r * cp) - T.y / R)) 2050 (4 * (V + Vo)) ∧
    Sc (rnd (R' * rnd (-q'.x / r'))) (R * (-q.x / r)) 2050 (4 * (V + Vo)) := by
  have hu0 := u_pos
  have hV := q1.nonneg
  have hVo := t1.nonneg
  have hcp0 : 0 < cp := by linarith
  have scR : Sc R' R 4.2 R := Sc.of_near hR' (by norm_num) (by rw [abs_of_pos hR])
  have ncp : Near cp' cp 364 := by
    have := hcp'.1
    unfold Near
    rw [abs_of_pos hcp0]
    have : 182 * u * 1 ≤ 364 * u * cp := by nlinarith
    linarith
  have nden := (hr'.mul' ncp (by norm_num) (by norm_num) (by norm_num) (by norm_num)).round' (by norm_num) (by norm_num)
  have p1 : 0 < r * cp := by positivity
  obtain ⟨n1, d1⟩ := q2.div nden p1.ne' (by norm_num) (by norm_num) (by norm_num) (by norm_num)
  obtain ⟨n2, d2⟩ := t2.div hR' hR.ne' (by norm_num) (by norm_num) (by norm_num) (by norm_num)
  obtain ⟨n3, d3⟩ := q1.neg.div hr' hr.ne' (by norm_num) (by norm_num) (by norm_num) (by norm_num)
  rw [abs_of_pos p1] at d1
  rw [abs_of_pos hR] at d2
  rw [abs_of_pos hr] at d3
  refine ⟨n2, n3, n1, ?_, ?_, ?_⟩
  · have := q3.sub (t1.mono (by norm_num)) (by norm_num) (by norm_num)
    refine ⟨this.1.trans ?_, this.2.trans (by linarith)⟩
    have : 0 ≤ u * (V + Vo) := by positivity
    norm_num; linarith
  · have s1 := d1.sub (d2.mono (by norm_num)) (by norm_num) (by norm_num)
    have s2 := scR.mul s1 (by norm_num) (by norm_num) (by norm_num) (by norm_num)
    have b1 : R * (V / (r * cp) + Vo / R) ≤ 4 * (V + Vo) := by
      have i1 : R * (V / (r * cp)) ≤ 4 * V := by
        rw [← mul_div_assoc, div_le_iff₀ p1]
        have : r * (1 / 2) ≤ r * cp := by gcongr
        have : R * V ≤ 4 * (r * cp) * V := by gcongr; linarith
        linarith
      have i2 : R * (Vo / R) = Vo := by field_simp
      rw [mul_add, i2]; linarith
    refine ⟨s2.1.trans ?_, s2.2.trans b1⟩
    have : (2050 : ℝ) * u * (R * (V / (r * cp) + Vo / R)) ≤ 2050 * u * (4 * (V + Vo)) := by gcongr
    have i0 : 0 ≤ R * (V / (r * cp) + Vo / R) := by positivity
    have : (4.2 + (1661 + (4.2 + 364 + 0.001 + 1.001) + 1.01 + 1.001) + 1.01) * u * (R * (V / (r * cp) + Vo / R))
      ≤ 2050 * u * (R * (V / (r * cp) + Vo / R)) := by gcongr; norm_num
    linarith
  · have s2 := scR.mul d3 (by norm_num) (by norm_num) (by norm_num) (by norm_num)
    have b1 : R * (V / r) ≤ 2 * V := by
      rw [← mul_div_assoc, div_le_iff₀ hr]
      have : R * V ≤ (2 * r) * V := by gcongr
      linarith
    refine ⟨s2.1.trans ?_, s2.2.trans (by linarith)⟩
    have i0 : 0 ≤ R * (V / r) := by positivity
    have : (4.2 + (1930 + 4.2 + 1.01) + 1.01) * u * (R * (V / r)) ≤ 2000 * u * (2 * V) := by gcongr; norm_num
    have : 0 ≤ u * V := by positivity
    have : 0 ≤ u * Vo := by positivity
    linarith

theorem of_scaled {a b : Vec3} {k : ℝ} (hk : 0 < k) (h : a.scaled k = b) : a = b.scaled (1 / k) := by
  rw [← h]; ext <;> simp only [Vec3.scaled] <;> field_simp

/-- the frame of an orbit with exact arithmetic, and with rounding -/
theorem frame_pair {o : GCRF} (hc : o.position.cross o.velocity ≠ ⟨0, 0, 0⟩)
    (ho : o.position.magnitude * o.velocity.magnitude ≤ 10 * (o.position.cross o.velocity).magnitude) :
    ∃ M M', Openspace.frameMatrix o = .ok M ∧ frameMatrix o.position o.velocity = .ok M' ∧ M.IsRotation ∧
      M.row1.scaled o.position.magnitude = o.position ∧
      (M'.row1.minus M.row1).magnitude ≤ 80 * u ∧ (M'.row2.minus M.row2).magnitude ≤ 80 * u ∧
      (M'.row3.minus M.row3).magnitude ≤ 80 * u := by
  have hu0 := u_pos
  have hp := position_ne_of_cross hc
  obtain ⟨M, hM, hrot, hrow1, hrow3, hrow2, -⟩ := C33_frame o (nonDegenerate_iff.mpr hc)
  have r1 := of_scaled (Vec3.magnitude_pos.mpr hp) hrow1
  have r3 := of_scaled (Vec3.magnitude_pos.mpr hc) hrow3
  obtain ⟨M', hM', n1, n2, n3⟩ := frameMatrix_near hc ho
  rw [← r1, ← r3, ← hrow2] at n2
  rw [← r1] at n1
  rw [← r3] at n3
  exact ⟨M, M', hM, hM', hrot, hrow1, by linarith, n2, by linarith⟩

theorem frame_rows {M M' : Mat3} (hrot : M.IsRotation) (n1 : (M'.row1.minus M.row1).magnitude ≤ 80 * u)
    (n2 : (M'.row2.minus M.row2).magnitude ≤ 80 * u) (n3 : (M'.row3.minus M.row3).magnitude ≤ 80 * u) (v : Vec3) :
    Sc (mulVec M' v).x (M.mulVec v).x 83.2 v.magnitude ∧ Sc (mulVec M' v).y (M.mulVec v).y 83.2 v.magnitude ∧
      Sc (mulVec M' v).z (M.mulVec v).z 83.2 v.magnitude := by
  have ho := hrot.orth
  have key : ∀ {r : Vec3}, r.dot r = 1 → r.magnitude = 1 := fun h =>
    Vec3.magnitude_of_dot (by norm_num) (by rw [h]; norm_num)
  exact ⟨dot_row (key ho.r11) n1, dot_row (key ho.r22) n2, dot_row (key ho.r33) n3⟩

/-- Hill coordinates with exact arithmetic, and with rounding -/
theorem gcrfToHcw_near {lib : Libm} (hlib : Spec.Accurate lib) (hatan : Spec.Atan2Accurate lib)
    (hasin : Spec.AsinAccurate lib) {o s : GCRF} (hc : o.position.cross o.velocity ≠ ⟨0, 0, 0⟩)
    (ho : o.position.magnitude * o.velocity.magnitude ≤ 10 * (o.position.cross o.velocity).magnitude)
    (h1 : o.position.magnitude ≤ 2 * s.position.magnitude) (h2 : s.position.magnitude ≤ 2 * o.position.magnitude)
    (hd : o.position.magnitude * s.position.magnitude ≤ 2 * o.position.dot s.position) :
    ∃ h p v, Openspace.gcrfToHcw o s = .ok h ∧
      gcrfToHcw lib o.position o.velocity s.position s.velocity = .ok (p, v) ∧
      (Sc p.x h.position.x 480 o.position.magnitude ∧ Sc p.y h.position.y 300 (1.6 * o.position.magnitude) ∧
        Sc p.z h.position.z 300 (1.6 * o.position.magnitude)) ∧
      (Sc v.x h.velocity.x 2050 (4 * (s.velocity.magnitude + o.velocity.magnitude)) ∧
        Sc v.y h.velocity.y 2050 (4 * (s.velocity.magnitude + o.velocity.magnitude)) ∧
        Sc v.z h.velocity.z 2050 (4 * (s.velocity.magnitude + o.velocity.magnitude))) := by
  have hu := u_tiny
  have hu0 := u_pos
  obtain ⟨M, M', hM, hM', hrot, hrow1, n1, n2, n3⟩ := frame_pair hc ho
  have hR : 0 < o.position.magnitude := Vec3.magnitude_pos.mpr (position_ne_of_cross hc)
  have hr : 0 < s.position.magnitude := by linarith
  have rows := frame_rows hrot n1 n2 n3
  obtain ⟨p1, p2, p3⟩ := rows s.position
  obtain ⟨w1, w2, w3⟩ := rows s.velocity
  obtain ⟨t1, t2, -⟩ := rows o.velocity
  have nR := magnitude_near o.position
  have nr := magnitude_near s.position
  have hPm := hrot.orth.magnitude_mulVec s.position
  have hWm := hrot.orth.magnitude_mulVec s.velocity
  -- the direction is within 60 degrees of that of the origin
  have hX : s.position.magnitude / 2 ≤ (M.mulVec s.position).x := by
    have e : o.position.dot s.position = (M.mulVec s.position).x * o.position.magnitude := by
      rw [← hrow1, Vec3.dot_scaled_left, hrow1]
      simp only [Mat3.mulVec]; ring
    rw [e] at hd
    apply le_of_mul_le_mul_right _ hR
    linarith
  have hsq := Vec3.magnitude_sq_dot (M.mulVec s.position)
  rw [hPm] at hsq
  simp only [Vec3.dot] at hsq
  obtain ⟨R, hRe⟩ : ∃ R, R = o.position.magnitude := ⟨_, rfl⟩
  obtain ⟨r, hre⟩ : ∃ r, r = s.position.magnitude := ⟨_, rfl⟩
  obtain ⟨V, hVe⟩ : ∃ V, V = s.velocity.magnitude := ⟨_, rfl⟩
  obtain ⟨Vo, hVoe⟩ : ∃ Vo, Vo = o.velocity.magnitude := ⟨_, rfl⟩
  obtain ⟨R', hR'e⟩ : ∃ R', R' = magnitude o.position := ⟨_, rfl⟩
  obtain ⟨r', hr'e⟩ : ∃ r', r' = magnitude s.position := ⟨_, rfl⟩
  obtain ⟨P, hP⟩ : ∃ P, P = M.mulVec s.position := ⟨_, rfl⟩
  obtain ⟨P', hP'⟩ : ∃ P, P = mulVec M' s.position := ⟨_, rfl⟩
  obtain ⟨W, hW⟩ : ∃ P, P = M.mulVec s.velocity := ⟨_, rfl⟩
  obtain ⟨W', hW'⟩ : ∃ P, P = mulVec M' s.velocity := ⟨_, rfl⟩
  obtain ⟨T, hT⟩ : ∃ P, P = M.mulVec o.velocity := ⟨_, rfl⟩
  obtain ⟨T', hT'⟩ : ∃ P, P = mulVec M' o.velocity := ⟨_, rfl⟩
  simp only [← hRe, ← hre, ← hVe, ← hVoe, ← hR'e, ← hr'e, ← hP, ← hP', ← hW, ← hW', ← hT,
    ← hT'] at ho h1 h2 hd hrow1 hR hr p1 p2 p3 w1 w2 w3 t1 t2 nR nr hPm hWm hX hsq ⊢
  have hYZ : P.y * P.y + P.z * P.z ≤ 3 / 4 * r ^ 2 := by nlinarith
  have hY : |P.y| ≤ 87 / 100 * r := by
    apply abs_le_of_sq_le_sq _ (by positivity); nlinarith [mul_self_nonneg P.z]
  have hZ : |P.z| ≤ 8661 / 10000 * r := by
    apply abs_le_of_sq_le_sq _ (by positivity); nlinarith [mul_self_nonneg P.y]
  have hS : |P.z / r| ≤ 8661 / 10000 := by rw [abs_div, abs_of_pos hr, div_le_iff₀ hr]; exact hZ
  obtain ⟨nr0, hS'⟩ := p3.div nr hr.ne' (by norm_num) (by norm_num) (by norm_num) (by norm_num)
  rw [abs_of_pos hr, div_self hr.ne'] at hS'
  have hS'' : Sc (rnd (P'.z / r')) (P.z / r) 88.5 1 := hS'.mono (by norm_num)
  obtain ⟨hS1, hphi⟩ := elevation_near hasin (by have := hS''.1; rwa [mul_one] at this) hS
  have hlam := planar_near hatan hr hX p1 hY p2
  obtain ⟨phi, hphie⟩ : ∃ x, x = arcsin (P.z / r) := ⟨_, rfl⟩
  obtain ⟨phi', hphie'⟩ : ∃ x, x = lib.asin (rnd (P'.z / r')) := ⟨_, rfl⟩
  obtain ⟨lam, hlame⟩ : ∃ x, x = pyAtan2 P.y P.x := ⟨_, rfl⟩
  obtain ⟨lam', hlame'⟩ : ∃ x, x = lib.atan2 P'.y P'.x := ⟨_, rfl⟩
  have hlamb : |lam| ≤ π / 2 := by
    rw [hlame]; exact (Complex.abs_arg_le_pi_div_two_iff.mpr (by show 0 ≤ P.x; linarith))
  have hphib : |phi| ≤ π / 2 := by
    rw [hphie]; exact abs_le.mpr ⟨neg_pi_div_two_le_arcsin _, arcsin_le_pi_div_two _⟩
  rw [← hphie, ← hphie'] at hphi
  rw [← hlame, ← hlame'] at hlam
  have hsin : Real.sin phi = P.z / r := by
    rw [hphie]; exact sin_arcsin (by linarith [(abs_le.mp hS).1]) (by linarith [(abs_le.mp hS).2])
  have hcosp : 1 / 2 ≤ Real.cos phi := by
    rw [hphie, cos_arcsin]
    apply le_sqrt_of_sq_le
    have : (P.z / r) ^ 2 ≤ 3 / 4 := by
      rw [div_pow, div_le_iff₀ (by positivity)]
      nlinarith [mul_self_nonneg P.y]
    linarith
  have c1 := Sc.cos hlib hphi
  have c2 := Sc.cos hlib hlam
  have c3 := Sc.sin hlib hlam
  obtain ⟨q1, q2, q3⟩ := sez_near hS'' (c1.mono (by norm_num)) (c3.mono (by norm_num)) (c2.mono (by norm_num))
    (by rw [← hsin]; exact Real.sin_sq_add_cos_sq phi) (Real.sin_sq_add_cos_sq lam) hWm.le w1 w2 w3
  obtain ⟨q', hq'⟩ : ∃ q', q' = mulVec (rswSez (rnd (P'.z / r')) (lib.cos phi') (lib.sin lam') (lib.cos lam')) W' := ⟨_, rfl⟩
  rw [← hq'] at q1 q2 q3
  obtain ⟨nR0, -, nd0, v1, v2, v3⟩ := rates_near hR hr h1 nR nr hcosp (c1.mono (by norm_num)) q1 q2 q3 t1 t2
  have hp1 := Real.pi_lt_d2
  have sR : Sc R' R 4.2 R := Sc.of_near nR (by norm_num) (by rw [abs_of_pos hR])
  have sr : Sc r' r 4.2 r := Sc.of_near nr (by norm_num) (by rw [abs_of_pos hr])
  have hp2 : π / 2 ≤ 1.58 := by norm_num at hp1 ⊢; linarith
  have slam : Sc lam' lam 295 1.58 := ⟨by norm_num at hlam ⊢; linarith, hlamb.trans hp2⟩
  have sphi : Sc phi' phi 295 1.58 := ⟨by norm_num at hphi ⊢; linarith, hphib.trans hp2⟩
  have m1 := (sr.sub sR (by norm_num) (by norm_num)).1
  have m2 := slam.mul sR (by norm_num) (by norm_num) (by norm_num) (by norm_num)
  have m3 := sphi.mul sR (by norm_num) (by norm_num) (by norm_num) (by norm_num)
  have huR : 0 ≤ u * R := by positivity
  have hur : u * r ≤ u * (2 * R) := by gcongr
  have sp1 : -1 ≤ P.z / r := by linarith [(abs_le.mp hS).1]
  have sp2 : P.z / r ≤ 1 := by linarith [(abs_le.mp hS).2]
  have hcp0 : r * Real.cos phi ≠ 0 := by positivity
  refine ⟨State.new o.epoch ⟨r - R, lam * R, phi * R⟩
    ⟨((Openspace.rswSez (P.z / r) (Real.cos phi) (Real.sin lam) (Real.cos lam)).mulVec W).z - T.x,
    R * (((Openspace.rswSez (P.z / r) (Real.cos phi) (Real.sin lam) (Real.cos lam)).mulVec W).y / (r * Real.cos phi) - T.y / R),
    R * (-((Openspace.rswSez (P.z / r) (Real.cos phi) (Real.sin lam) (Real.cos lam)).mulVec W).x / r)⟩,
    ⟨rnd (r' - R'), rnd (lam' * R'), rnd (phi' * R')⟩,
    ⟨rnd (q'.z - T'.x), rnd (R' * rnd (rnd (q'.y / rnd (r' * lib.cos phi')) - rnd (T'.y / R'))),
      rnd (R' * rnd (-q'.x / r'))⟩, ?_, ?_, ⟨?_, ?_, ?_⟩, v1, v2, v3⟩
  · simp only [Openspace.gcrfToHcw, hM, ok_bind, ← hRe, ← hre, ← hP, ← hW, ← hT, pyDiv_ok hr.ne', pyDiv_ok hR.ne',
      pyAsin_ok sp1 sp2, ← hphie, ← hlame, pyCos, pySin, pyDiv_ok hcp0, pure_eq_ok]
  · have nb : ¬ (rnd (P'.z / r') < -1 ∨ 1 < rnd (P'.z / r')) := by
      rw [not_or, not_lt, not_lt]; exact abs_le.mp hS1
    simp only [gcrfToHcw, hM', ok_bind, ← hR'e, ← hr'e, ← hP', ← hW', ← hT', div_ok nr0, div_ok nR0, asin, if_neg nb,
      ← hphie', ← hlame', ← hq', div_ok nd0, pure_eq_ok]
  · refine ⟨m1.trans ?_, abs_le.mpr ⟨?_, ?_⟩⟩
    · norm_num; linarith
    · show -R ≤ r - R; linarith
    · show r - R ≤ R; linarith
  · exact ⟨m2.1.trans (by norm_num; linarith), m2.2.trans (by norm_num; linarith)⟩
  · exact ⟨m3.1.trans (by norm_num; linarith), m3.2.trans (by norm_num; linarith)⟩

theorem asin_rounded : Spec.AsinAccurate rounded := by
  intro x _
  have h := rnd_near (arcsin x)
  have h1 : |arcsin x| ≤ 2 := by
    have := Real.pi_lt_four
    exact abs_le.mpr ⟨by linarith [neg_pi_div_two_le_arcsin x], by linarith [arcsin_le_pi_div_two x]⟩
  refine h.trans ?_
  calc (2⁻¹ : ℝ) ^ 53 * |arcsin x| ≤ 2⁻¹ ^ 53 * 2 := by gcongr
    _ ≤ _ := by norm_num

end F64

/-- **C113**: in double precision `to_hcw` succeeds and its result has an error of at most 6e-14 of the distance of the
origin in position and 1e-12 of the sum of the speeds in velocity, for a library with accurate functions, an origin
whose velocity is at least 6 degrees off the radial direction, and a state within 60 degrees of the origin at between
half and twice its distance. -/
theorem C113_to_hcw {lib : F64.Libm} (hlib : Spec.Accurate lib) (hatan : Spec.Atan2Accurate lib)
    (hasin : Spec.AsinAccurate lib) (o s : GCRF) (hp : o.position ≠ ⟨0, 0, 0⟩) (hv : o.velocity ≠ ⟨0, 0, 0⟩)
    (ho : o.position.magnitude * o.velocity.magnitude ≤ 10 * (o.position.cross o.velocity).magnitude)
    (h1 : o.position.magnitude ≤ 2 * s.position.magnitude) (h2 : s.position.magnitude ≤ 2 * o.position.magnitude)
    (hd : o.position.magnitude * s.position.magnitude ≤ 2 * o.position.dot s.position) :
    ∃ h p v, gcrfToHcw o s = .ok h ∧
      F64.gcrfToHcw lib o.position o.velocity s.position s.velocity = .ok (p, v) ∧
      (|p.x - h.position.x| ≤ 6 / 10 ^ 14 * o.position.magnitude ∧
        |p.y - h.position.y| ≤ 6 / 10 ^ 14 * o.position.magnitude ∧
        |p.z - h.position.z| ≤ 6 / 10 ^ 14 * o.position.magnitude) ∧
      (|v.x - h.velocity.x| ≤ 1 / 10 ^ 12 * (s.velocity.magnitude + o.velocity.magnitude) ∧
        |v.y - h.velocity.y| ≤ 1 / 10 ^ 12 * (s.velocity.magnitude + o.velocity.magnitude) ∧
        |v.z - h.velocity.z| ≤ 1 / 10 ^ 12 * (s.velocity.magnitude + o.velocity.magnitude)) := by
  have hu := F64.u_tiny
  have hc : o.position.cross o.velocity ≠ ⟨0, 0, 0⟩ := by
    intro h
    rw [h, Vec3.magnitude_eq_zero.mpr rfl] at ho
    have := mul_pos (Vec3.magnitude_pos.mpr hp) (Vec3.magnitude_pos.mpr hv)
    linarith
  obtain ⟨h, p, v, e1, e2, ⟨a1, a2, a3⟩, b1, b2, b3⟩ := F64.gcrfToHcw_near hlib hatan hasin hc ho h1 h2 hd
  have hR := o.position.magnitude_nonneg
  have hV := s.velocity.magnitude_nonneg
  have hVo := o.velocity.magnitude_nonneg
  have k1 : 480 * F64.u * o.position.magnitude ≤ 6 / 10 ^ 14 * o.position.magnitude := by
    gcongr; norm_num at hu ⊢; linarith
  have k2 : 8200 * F64.u * (s.velocity.magnitude + o.velocity.magnitude)
      ≤ 1 / 10 ^ 12 * (s.velocity.magnitude + o.velocity.magnitude) := by
    gcongr; norm_num at hu ⊢; linarith
  have l1 : ∀ {y x : ℝ}, F64.Sc y x 300 (1.6 * o.position.magnitude) → |y - x| ≤ 6 / 10 ^ 14 * o.position.magnitude := by
    intro y x h
    have := h.1
    linarith
  have l2 : ∀ {y x : ℝ}, F64.Sc y x 2050 (4 * (s.velocity.magnitude + o.velocity.magnitude)) →
      |y - x| ≤ 1 / 10 ^ 12 * (s.velocity.magnitude + o.velocity.magnitude) := by
    intro y x h
    have := h.1
    linarith
  exact ⟨h, p, v, e1, e2, ⟨a1.1.trans k1, l1 a2, l1 a3⟩, l2 b1, l2 b2, l2 b3⟩

/-- a satellite 100 km ahead of a geosynchronous one, with a correctly rounded library -/
example : ∃ h p v, gcrfToHcw geoState (GCRF.new ⟨59932⟩ ⟨42164, 100, 3⟩ ⟨0.01, 3.07, 0⟩) = .ok h ∧
    F64.gcrfToHcw F64.rounded ⟨42164, 0, 0⟩ ⟨0, 3.0747, 0⟩ ⟨42164, 100, 3⟩ ⟨0.01, 3.07, 0⟩ = .ok (p, v) ∧
    |p.y - h.position.y| ≤ 6 / 10 ^ 14 * 42164 := by
  have e1 : geoState.position.magnitude = 42164 :=
    Vec3.magnitude_of_dot (by norm_num) (by simp only [geoState, GCRF.new, State.new, Vec3.copy, Vec3.dot]; norm_num)
  have e2 : geoState.velocity.magnitude = 3.0747 :=
    Vec3.magnitude_of_dot (by norm_num) (by simp only [geoState, GCRF.new, State.new, Vec3.copy, Vec3.dot]; norm_num)
  have e3 : (geoState.position.cross geoState.velocity).magnitude = 42164 * 3.0747 :=
    Vec3.magnitude_of_dot (by norm_num) (by
      simp only [geoState, GCRF.new, State.new, Vec3.copy, Vec3.dot, Vec3.cross]; norm_num)
  obtain ⟨s, hs⟩ : ∃ s, s = GCRF.new ⟨59932⟩ ⟨42164, 100, 3⟩ ⟨0.01, 3.07, 0⟩ := ⟨_, rfl⟩
  have sq : s.position.magnitude ^ 2 = 42164 ^ 2 + 100 ^ 2 + 3 ^ 2 := by
    rw [Vec3.magnitude_sq_dot, hs]; simp only [GCRF.new, State.new, Vec3.copy, Vec3.dot]; norm_num
  have b1 : 42164 ≤ s.position.magnitude :=
    abs_le_of_sq_le_sq' (by rw [sq]; norm_num) (Vec3.magnitude_nonneg _) |>.2
  have b2 : s.position.magnitude ≤ 42165 := abs_le_of_sq_le_sq' (by rw [sq]; norm_num) (by norm_num) |>.2
  obtain ⟨h, p, v, h1, h2, ⟨-, h3, -⟩, -⟩ := C113_to_hcw F64.rounded_accurate.1 F64.rounded_accurate.2 F64.asin_rounded
    geoState s (Vec3.magnitude_pos.mp (by rw [e1]; norm_num)) (Vec3.magnitude_pos.mp (by rw [e2]; norm_num))
    (by rw [e1, e2, e3]; norm_num) (by rw [e1]; linarith) (by rw [e1]; linarith) (by
      have : geoState.position.dot s.position = 42164 * 42164 := by
        rw [hs]; simp only [geoState, GCRF.new, State.new, Vec3.copy, Vec3.dot]; norm_num
      rw [e1, this]; linarith)
  rw [e1] at h3
  rw [hs] at h1 h2
  exact ⟨h, p, v, h1, h2, h3⟩

end Openspace
