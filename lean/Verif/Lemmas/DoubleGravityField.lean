import Verif.Lemmas.DoubleGravity
import Verif.Spec.Exponential

/-! # The body-fixed geopotential acceleration in double precision -/

namespace Openspace.F64

open Real Spec

theorem three_components {v : Vec3} {k : ℝ} (hx : |v.x| ≤ k) (hy : |v.y| ≤ k) (hz : |v.z| ≤ k) : v.magnitude ≤ 1.7321 * k := by
  have k0 : 0 ≤ k := (abs_nonneg _).trans hx
  refine abs_le_of_sq_le_sq' (a := v.magnitude) ?_ (by positivity) |>.2
  rw [Vec3.magnitude_sq_dot]
  simp only [Vec3.dot]
  have key : ∀ {a : ℝ}, |a| ≤ k → a * a ≤ k ^ 2 := fun {a} h => by
    rw [← abs_mul_abs_self, ← sq]; gcongr
  have := key hx; have := key hy; have := key hz
  norm_num [mul_pow]
  nlinarith [sq_nonneg k]

section

variable {lib : Libm} {tan : ℝ → ℝ} (hlib : Spec.Accurate lib) (hatan : Spec.Atan2Accurate lib) (hpow : Spec.PowAccurate lib)
  (htan : Spec.TanAccurate tan)
  {q' q : Vec3} {d' d η θ : ℝ} (hη : ErrUnit η) (hθ : ErrUnit θ) (hq : (q'.minus q).magnitude ≤ η * q.magnitude)
  (hρ : θ * axis q = η * q.magnitude) (hd5 : 5000 ≤ d) (hd1 : d ≤ q.magnitude) (hd2 : q.magnitude ≤ (1 + 5.5e-9) * d)
  (hd' : |d' - d| ≤ η * d)

include hθ

theorem power_ts (hpow : Spec.PowAccurate lib) {y x : ℝ} (h : Ts θ 1 y x 1.29 1.28) (hy : 0 < y) (n : ℕ) (h2 : 2 ≤ n) (h4 : n ≤ 4) :
    Ts θ 1 (lib.pow y n) (x ^ n) (powErr n) (powBound n) := by
  have m2 := h.mul0 hθ h
  have m3 := m2.mul0 hθ h
  have m4 := m3.mul0 hθ h
  simp only [mul_one] at m2 m3 m4
  have hp := hpow y n hy
  rw [Real.rpow_natCast, show (1 : ℝ) / 2 ^ 52 = 2 * u by norm_num [u]] at hp
  have key : ∀ {E b : ℝ}, Ts θ 1 (y ^ n) (x ^ n) E b → 1.0001 * E + 0.001 * b ≤ powErr n → b ≤ powBound n →
      Ts θ 1 (lib.pow y n) (x ^ n) (powErr n) (powBound n) := by
    intro E b g hE hb
    have he := g.e0; have hb0 := g.b0; have htp := hθ.pos
    have h5 := g.abs_le
    rw [abs_of_pos (pow_pos hy n), mul_one] at h5
    have h6 : 2 * u * y ^ n ≤ 2 * (1.2e-4 * θ) * (b + E * 1e-5) := by
      have := hθ.lo; have := hθ.hi; have := u_pos
      have h7 : E * θ ≤ E * 1e-5 := by gcongr
      gcongr
      linarith
    have h7 := abs_sub_le (lib.pow y n) (y ^ n) (x ^ n)
    have h8 := g.err
    refine Ts.mono (E := 1.0001 * E + 0.001 * b) (b := b) ⟨?_, g.le, by positivity, hb0, zero_le_one⟩ htp.le hE hb
    have h9 : 0 ≤ θ * E := by positivity
    have h10 : 0 ≤ θ * b := by positivity
    norm_num only at *
    nlinarith
  interval_cases n
  · refine key (E := _) (b := _) (by rw [show y ^ 2 = y * y by ring, show x ^ 2 = x * x by ring]; exact m2) ?_ ?_ <;>
      norm_num [powErr, powBound]
  · refine key (E := _) (b := _) (by rw [show y ^ 3 = y * y * y by ring, show x ^ 3 = x * x * x by ring]; exact m3) ?_ ?_ <;>
      norm_num [powErr, powBound]
  · refine key (E := _) (b := _) (by rw [show y ^ 4 = y * y * y * y by ring, show x ^ 4 = x * x * x * x by ring]; exact m4) ?_ ?_ <;>
      norm_num [powErr, powBound]

include hlib hatan hpow htan hη hq hρ hd5 hd1 hd2 hd'

theorem field_ts : ∃ a' a, gravityItrf lib tan q' d' = .ok a' ∧ Openspace.gravityItrf q d = .ok a ∧
    (a'.minus a).magnitude ≤ 0.46 * θ * (Earth.MU / d ^ 2) := by
  have hd0 : 0 < d := by linarith
  have hm : 0 < q.magnitude := by linarith
  have hθp := hθ.pos
  have hηp := hη.pos
  have hax := axis_pos hη hθ hρ hm
  have htc := theta_cos hη hθ hρ hm
  have hmc : q.magnitude * cos (SphericalPosition.fromCartesian q).declination = axis q := mag_mul_cos_dec q
  obtain ⟨ds, dc⟩ := declination_ts hlib hatan hη hθ hq hρ hm
  have ras := ascension_ts hlib hatan hη hθ hq hρ hm
  have tts := tangent_ts hatan htan hη hθ hq hρ hm
  obtain ⟨φ, hφ⟩ : ∃ a, a = (SphericalPosition.fromCartesian q).declination := ⟨_, rfl⟩
  obtain ⟨α, hα⟩ : ∃ a, a = (SphericalPosition.fromCartesian q).right_ascension := ⟨_, rfl⟩
  rw [← hφ] at htc hmc ds dc tts
  rw [← hα] at ras
  have hcos : 0 < cos φ := by
    have : 0 < θ * cos φ := htc ▸ hηp
    exact pos_of_mul_pos_right this hθp.le
  have hle : η ≤ θ := by rw [← htc]; exact mul_le_of_le_one_right hθp.le (cos_le_one φ)
  have hdq : q.magnitude ≤ 1.0001 * d := by norm_num at *; linarith
  -- lengths
  have tsd : Ts θ d d' d 1 1 := by
    refine ⟨hd'.trans ?_, by rw [one_mul, abs_of_pos hd0], by norm_num, by norm_num, hd0.le⟩
    rw [one_mul]; gcongr
  obtain ⟨hd'0, tsr⟩ := tsd.inv hθ hd0 (by norm_num)
  have tsroot : Ts θ (axis q) (rnd (sqrtNN (rnd (rnd (q'.x * q'.x) + rnd (q'.y * q'.y))))) (axis q) 1.01 1 := by
    refine ⟨?_, by rw [one_mul, abs_of_pos hax], by norm_num, by norm_num, hax.le⟩
    have h1 := rho_near q'
    have h2 := (axis_diff q' q).trans hq
    rw [← hρ] at h2
    have e : rho q' = axis q' := rfl
    unfold Near at h1
    rw [e, abs_of_nonneg (axis_nonneg q')] at h1
    have h3 := abs_sub_le (rnd √(rnd (rnd (q'.x * q'.x) + rnd (q'.y * q'.y)))) (axis q') (axis q)
    have h4 := (abs_le.mp h2).2
    have h5 := hθ.hi
    have h6 : axis q' ≤ 1.001 * axis q := by
      have : θ * axis q ≤ 1e-5 * axis q := by gcongr
      norm_num only at this ⊢; linarith
    have h7 : 4 * u * axis q' ≤ 4 * (1.2e-4 * θ) * (1.001 * axis q) := by
      have := hθ.lo; have := u_pos; have := axis_nonneg q'; gcongr
    have h8 : 0 ≤ θ * axis q := by positivity
    have h9 : 4 * (1.2e-4 * θ) * (1.001 * axis q) ≤ 0.01 * (θ * axis q) := by
      calc 4 * (1.2e-4 * θ) * (1.001 * axis q) = (4 * 1.2e-4 * 1.001) * (θ * axis q) := by ring
        _ ≤ _ := by gcongr; norm_num
    simp only [sqrtNN]
    calc _ ≤ 0.01 * (θ * axis q) + θ * axis q := by linarith
      _ = _ := by ring
  obtain ⟨hroot0, tsrr⟩ := tsroot.inv hθ hax (by norm_num)
  have tsrr' := tsrr.mono hθp.le (show _ ≤ (1.02 : ℝ) by norm_num) le_rfl
  obtain ⟨hrr0, tsroot2⟩ := tsrr'.inv hθ (by positivity) (by norm_num)
  have hcq := component_le (q'.minus q)
  have lx := le_axis q
  have tsx : Ts θ (axis q) q'.x q.x 1 1 :=
    ⟨by rw [one_mul, hρ]; exact hcq.1.trans hq, by rw [one_mul]; exact lx.1, by norm_num, by norm_num, hax.le⟩
  have tsy : Ts θ (axis q) q'.y q.y 1 1 :=
    ⟨by rw [one_mul, hρ]; exact hcq.2.1.trans hq, by rw [one_mul]; exact lx.2, by norm_num, by norm_num, hax.le⟩
  have tsz : Ts θ d q'.z q.z 1.0001 1.0001 := by
    refine ⟨hcq.2.2.trans (hq.trans ?_), (component_le q).2.2.trans hdq, by norm_num, by norm_num, hd0.le⟩
    calc η * q.magnitude ≤ θ * (1.0001 * d) := by gcongr
      _ = _ := by ring
  -- constants
  have hMU : 0 < Earth.MU := by norm_num [Earth.MU]
  have hR0 : 0 < Earth.RADIUS := by norm_num [Earth.RADIUS]
  have tsmu : Ts θ Earth.MU mu Earth.MU _ 1 :=
    Ts.of_near hθ (near_rnd Earth.MU) (by rw [one_mul, abs_of_pos hMU]) (by norm_num) (by norm_num) hMU.le
  have tsR : Ts θ Earth.RADIUS geoA Earth.RADIUS _ 1 :=
    Ts.of_near hθ (near_rnd Earth.RADIUS) (by rw [one_mul, abs_of_pos hR0]) (by norm_num) (by norm_num) hR0.le
  have tsmr := tsmu.mul hθ tsr
  have tsq0 := tsR.mul hθ tsr
  have hq0 : 0 ≤ Earth.RADIUS * (1 / d) := by positivity
  have hq1 : Earth.RADIUS * (1 / d) ≤ 1.28 := by
    rw [mul_one_div, div_le_iff₀ hd0]; norm_num [Earth.RADIUS]; linarith
  have tsq : Ts θ 1 (rnd (geoA * rnd (1 / d'))) (Earth.RADIUS * (1 / d)) 1.29 1.28 := by
    refine ⟨tsq0.err.trans ?_, by rw [mul_one, abs_of_nonneg hq0]; exact hq1, by norm_num, by norm_num, zero_le_one⟩
    calc _ ≤ 1.005 * θ * (Earth.RADIUS * (1 / d)) := by gcongr; norm_num
      _ ≤ 1.005 * θ * 1.28 := by gcongr
      _ ≤ _ := by norm_num; linarith
  have hqpos : 0 < rnd (geoA * rnd (1 / d')) := by
    have : 0 < geoA := rnd_pos hR0
    have : 0 < rnd (1 / d') := rnd_pos (by positivity)
    exact rnd_pos (by positivity)
  obtain ⟨w, hw, wr, wp, wl⟩ := sums_ts (tan := tan) (dec' := (fromCartesian lib q').declination) hη hθ hcos htc dc ds tts ras
    (fun n h2 h4 => power_ts hθ hpow tsq hqpos n h2 h4) hq0 hq1
  obtain ⟨sr, esr⟩ : ∃ x, x = gsum fun n m => (gterm α φ (Earth.RADIUS * (1 / d)) n m).r := ⟨_, rfl⟩
  obtain ⟨sp, esp⟩ : ∃ x, x = gsum fun n m => (gterm α φ (Earth.RADIUS * (1 / d)) n m).phi := ⟨_, rfl⟩
  obtain ⟨sl, esl⟩ : ∃ x, x = gsum fun n m => (gterm α φ (Earth.RADIUS * (1 / d)) n m).lamb := ⟨_, rfl⟩
  rw [← esr] at wr; rw [← esp] at wp; rw [← esl] at wl
  -- the partial derivatives
  have pr := wr.mul hθ (tsr.neg.mul hθ tsmr)
  have pp := wp.mul hθ tsmr
  have pl := wl.mul hθ tsmr
  have rz := ((tsz.mul hθ tsr).mul hθ tsr).mul hθ tsrr'
  have hrax : axis q ≤ 1.0001 * d := (axis_le q).trans hdq
  obtain ⟨G, hG⟩ : ∃ G, G = Earth.MU / d ^ 2 := ⟨_, rfl⟩
  have hG0 : 0 < G := by rw [hG]; positivity
  have f1 := (tsr.mul hθ pr)
  have f1' := f1.rescale hθp.le (σ' := 1.0001 * (G / axis q)) (by
    rw [hG]
    rw [show 1 / d * (1 * (1 / d * (Earth.MU * (1 / d)))) = Earth.MU / d ^ 2 * (1 / d) by field_simp,
      show 1.0001 * (Earth.MU / d ^ 2 / axis q) = Earth.MU / d ^ 2 * (1.0001 / axis q) by ring]
    refine mul_le_mul_of_nonneg_left ?_ (by positivity)
    rw [div_le_div_iff₀ hd0 hax]; linarith)
  have f2' := (rz.mul hθ pp).rescale hθp.le (σ' := 1.0001 * (G / axis q)) (by
    rw [hG]
    rw [show d * (1 / d) * (1 / d) * (1 / axis q) * (1 * (Earth.MU * (1 / d))) = Earth.MU / d ^ 2 / axis q by field_simp]
    have : 0 < Earth.MU / d ^ 2 / axis q := by positivity
    norm_num; linarith)
  have hA := (f1'.sub hθ f2')
  have hB := ((tsrr'.mul hθ tsrr').mul hθ pl)
  have eG : 1.0001 * (G / axis q) * axis q = 1.0001 * G := by field_simp
  have cB : 1 / axis q * (1 / axis q) * (cos φ * (Earth.MU * (1 / d))) * axis q ≤ 1.0001 * G := by
    have e : 1 / axis q * (1 / axis q) * (cos φ * (Earth.MU * (1 / d))) * axis q = G * (cos φ * d / axis q) := by
      rw [hG]; field_simp
    rw [e]
    have : cos φ * d / axis q ≤ 1 := by
      rw [div_le_one hax, ← hmc, mul_comm]
      gcongr
    nlinarith
  have hX := ((hA.mul hθ tsx).rescale hθp.le eG.le).sub hθ ((hB.mul hθ tsy).rescale hθp.le cB)
  have hY := ((hA.mul hθ tsy).rescale hθp.le eG.le).add hθ ((hB.mul hθ tsx).rescale hθp.le cB)
  have hZ := ((f1.mul hθ tsz).rescale hθp.le (σ' := 1.0001 * G) (by
      rw [hG, show 1 / d * (1 * (1 / d * (Earth.MU * (1 / d)))) * d = Earth.MU / d ^ 2 by field_simp]
      have : 0 < Earth.MU / d ^ 2 := by positivity
      norm_num; linarith)).add hθ ((((tsroot2.mul hθ tsr).mul hθ tsr).mul hθ pp).rescale hθp.le (σ' := 1.0001 * G) (by
      rw [hG, show 1 / (1 / axis q) * (1 / d) * (1 / d) * (1 * (Earth.MU * (1 / d))) = Earth.MU / d ^ 2 * (axis q / d) by field_simp,
        mul_comm]
      refine mul_le_mul_of_nonneg_right ?_ (by positivity)
      rw [div_le_iff₀ hd0]; exact hrax))
  have fin : ∀ {E : ℝ}, E * 1.0001 ≤ 0.2655 → E * θ * (1.0001 * G) ≤ 0.2655 * θ * G := by
    intro E hE
    have : 0 < θ * G := by positivity
    calc E * θ * (1.0001 * G) = E * 1.0001 * (θ * G) := by ring
      _ ≤ 0.2655 * (θ * G) := by gcongr
      _ = _ := by ring
  have e2 : Openspace.gravityItrf q d = .ok
      ⟨(1 / d * (sr * (-(1 / d) * (Earth.MU * (1 / d)))) - q.z * (1 / d) * (1 / d) * (1 / axis q) * (sp * (Earth.MU * (1 / d)))) * q.x
          - (1 / axis q * (1 / axis q) * (sl * (Earth.MU * (1 / d)))) * q.y,
       (1 / d * (sr * (-(1 / d) * (Earth.MU * (1 / d)))) - q.z * (1 / d) * (1 / d) * (1 / axis q) * (sp * (Earth.MU * (1 / d)))) * q.y
          + (1 / axis q * (1 / axis q) * (sl * (Earth.MU * (1 / d)))) * q.x,
       1 / d * (sr * (-(1 / d) * (Earth.MU * (1 / d)))) * q.z + 1 / (1 / axis q) * (1 / d) * (1 / d) * (sp * (Earth.MU * (1 / d)))⟩ := by
    simp only [Openspace.gravityItrf, sqrtNN]
    rw [pyDiv_ok hd0.ne', ok_bind, pyDiv_ok hax.ne', ok_bind, gravitySums_eq, ok_bind,
      pyDiv_ok (by positivity), ok_bind, pure_eq_ok, ← hφ, ← hα, ← esr, ← esp, ← esl]
  refine ⟨_, _, by simp only [gravityItrf, div_ok hd'0.ne', div_ok hroot0.ne', div_ok hrr0.ne', ok_bind, pure_eq_ok, hw]; rfl,
    e2, ?_⟩
  refine (three_components (k := 0.2655 * θ * G) ?_ ?_ ?_).trans ?_
  · exact hX.err.trans (fin (by norm_num))
  · exact hY.err.trans (fin (by norm_num))
  · exact hZ.err.trans (fin (by norm_num))
  · rw [← hG]
    have : 0 < θ * G := by positivity
    calc 1.7321 * (0.2655 * θ * G) = 1.7321 * 0.2655 * (θ * G) := by ring
      _ ≤ 0.46 * (θ * G) := by gcongr; norm_num
      _ = _ := by ring

end

end Openspace.F64
