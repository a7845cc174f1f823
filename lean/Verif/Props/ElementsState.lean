import Verif.Lemmas.ElementsState

/-!
# Property C102: from a Cartesian state to classical elements and back
-/

namespace Openspace

open Real

/-- what `to_ijk` returns for the elements of a bound state -/
theorem toIjk_fromIjk (s : State) (hr : s.position ≠ ⟨0, 0, 0⟩) (hh : s.position.cross s.velocity ≠ ⟨0, 0, 0⟩)
    (hb : s.velocity.magnitude ^ 2 / 2 < Earth.MU / s.position.magnitude) :
    ∃ el s' n w X, ClassicalElements.fromIjk s = .ok el ∧ (∀ fuel, n ≤ fuel → el.toIjk fuel = .ok s') ∧
      s'.epoch = s.epoch ∧ 0 < el.semimajor_axis ∧ 0 ≤ el.eccentricity ∧ el.eccentricity < 1 ∧
      s.velocity.magnitude ^ 2 / 2 - Earth.MU / s.position.magnitude = -Earth.MU / (2 * el.semimajor_axis) ∧
      s.position.cross s.velocity = w.scaled (√(Earth.MU * (el.semimajor_axis * (1 - el.eccentricity ^ 2)))) ∧
      w.dot w = 1 ∧
      X = ((nodeN (raanFromW w)).scaled (s.position.magnitude * cos (uFromRW s.position w))).plus
        ((nodeM (raanFromW w) (incFromW w)).scaled (s.position.magnitude * sin (uFromRW s.position w))) ∧
      (s'.position.minus X).magnitude ≤ el.semimajor_axis * (5e-25 / (1 - el.eccentricity)) ∧
      (s'.velocity.minus ((X.scaled (s.position.dot s.velocity / s.position.dot s.position)).plus
        ((w.cross X).scaled (√(Earth.MU * (el.semimajor_axis * (1 - el.eccentricity ^ 2)))
          / s.position.dot s.position)))).magnitude
        ≤ √(Earth.MU / el.semimajor_axis) * (5e-25 / (1 - el.eccentricity) / (1 - el.eccentricity) ^ 2) := by
  obtain ⟨el, E, nu, w, h1, h2, ha, he, he', hen, hrE, hqE, hE0, hE1, hM, hnu, hwu, hcr, hi, hO, haop, -⟩ :=
    fromIjk_bound s hr hh hb
  obtain ⟨E', n, hE', -, -, k, hk⟩ := C18_inverse E el.eccentricity he he' (by linarith [Real.pi_pos]) hE1
  rw [← hM] at hE'
  have hto := fun fuel hf => toIjk_eq fuel el ha he he' (hE' fuel hf)
  have hmu := mu_pos
  obtain ⟨nu', hnu', -, -, -, hc, hsn⟩ := C19_true_anomaly el.semimajor_axis el.eccentricity E he he'
  have : nu' = nu := by rw [hnu, Except.ok.injEq] at hnu'; exact hnu'.symm
  subst this
  have hX := perigee_to_node el (uFromRW s.position w) nu' haop s.position.magnitude
  rw [hrE, hc, hsn, ← hrE, hO, hi] at hX
  have hW : el.dirW = w := by
    obtain ⟨f1, f2, f3, f4⟩ := frame_of_normal hwu
    rw [← hi, ← hO] at f3 f4
    rw [← hi] at f2
    ext
    · exact f3
    · simp only [ClassicalElements.dirW]; rw [f4]; ring
    · exact f2
  have hPW : w.cross el.dirP = el.semilatusRectumVector := hW ▸ el.dirW_cross_dirP
  have hQW : w.cross el.semilatusRectumVector = el.dirP.scaled (-1) := hW ▸ el.dirW_cross_dirQ
  have hP := el.dirP_unit
  have hQ := el.dirQ_unit
  have hPQ := el.dirP_dirQ
  obtain ⟨P, hPe⟩ : ∃ P, P = el.dirP := ⟨_, rfl⟩
  obtain ⟨Q, hQe⟩ : ∃ Q, Q = el.semilatusRectumVector := ⟨_, rfl⟩
  rw [← hPe, ← hQe] at hX hPW hPQ
  rw [← hPe] at hP
  rw [← hQe] at hQ
  rw [← hPe, ← hQe] at hQW
  rw [← hPe, ← hQe] at hto
  have hD := one_sub_e_cos_pos he he' E
  have hD' := one_sub_e_cos_pos he he' E'
  have hrr : s.position.dot s.position = s.position.magnitude ^ 2 := (Vec3.magnitude_sq_dot _).symm
  obtain ⟨a, hae⟩ : ∃ a, a = el.semimajor_axis := ⟨_, rfl⟩
  obtain ⟨e, hee⟩ : ∃ e, e = el.eccentricity := ⟨_, rfl⟩
  rw [← hae, ← hee] at hto hX hcr hrE
  rw [← hae] at hen ha
  rw [← hee] at he he' hk hD hD'
  rw [← hae, ← hee] at hqE
  have h2e : (0 : ℝ) < 1 - e * e := by nlinarith
  have hss := Real.mul_self_sqrt h2e.le
  have hma : (0 : ℝ) ≤ Earth.MU / a := by positivity
  have hsm := Real.mul_self_sqrt hma
  rw [sq] at hX
  obtain ⟨b, hb⟩ : ∃ b, b = √(1 - e * e) := ⟨_, rfl⟩
  obtain ⟨κ, hκ⟩ : ∃ κ, κ = √(Earth.MU / a) := ⟨_, rfl⟩
  rw [← hb] at hto hX hss
  rw [← hκ] at hto hsm
  have hb0 : 0 ≤ b := by rw [hb]; exact Real.sqrt_nonneg _
  have hκ0 : 0 ≤ κ := by rw [hκ]; exact Real.sqrt_nonneg _
  have hmua : Earth.MU = κ * κ * a := by rw [hsm]; field_simp
  have hsq : √(Earth.MU * a) = κ * a := by
    rw [hmua, show κ * κ * a * a = (κ * a) * (κ * a) by ring]
    exact Real.sqrt_mul_self (by positivity)
  have hsq2 : √(Earth.MU * (a * (1 - e ^ 2))) = κ * a * b := by
    rw [hmua, show κ * κ * a * (a * (1 - e ^ 2)) = (κ * a * b) * (κ * a * b) by
      linear_combination -(κ * a) ^ 2 * hss]
    exact Real.sqrt_mul_self (by positivity)
  have hEE : |E' - (E + 2 * π * k)| ≤ 5e-25 / (1 - e) := hk
  have hcos : cos (E + 2 * π * k) = cos E := cos_turn E k
  have hsin : sin (E + 2 * π * k) = sin E := sin_turn E k
  have hbb : b * b ≤ 1 := by rw [hss]; nlinarith
  refine ⟨el, _, n, w, _, h1, hto, ?_, hae ▸ ha, hee ▸ he, hee ▸ he', hae ▸ hen, ?_, hwu, rfl, ?_, ?_⟩
  · exact h2
  · rw [← hae, ← hee]; exact hcr
  · rw [← hX, ← hae, ← hee]
    have := position_close hP hQ hPQ (e := e) ha hbb hEE
    rw [hcos, hsin] at this
    exact this
  · rw [← hX, ← hae, ← hee]
    have := velocity_close hP hQ hPQ hκ0 he he' hbb hEE
    rw [hcos, hsin] at this
    rw [← hκ]
    rw [hqE, hsq, hsq2, hrr, hrE, orbit_velocity hPW hQW ha hss rfl hD]
    rw [coef_sin ha hD', coef_cos ha hD']
    exact this

/-- **C102, what holds.** A bound state whose angular momentum is not along the polar axis is recovered by `to_ijk`
from the elements `from_ijk` computes, up to the tolerance of the solver of Kepler's equation. Missing: states in the
equatorial plane, see `C102_violated`. -/
theorem C102_round_trip_partial (s : State)
    (hb : s.velocity.magnitude ^ 2 / 2 < Earth.MU / s.position.magnitude)
    (hp : (s.position.cross s.velocity).x ≠ 0 ∨ (s.position.cross s.velocity).y ≠ 0) :
    ∃ el s' n, ClassicalElements.fromIjk s = .ok el ∧ (∀ fuel, n ≤ fuel → el.toIjk fuel = .ok s') ∧
      0 < el.semimajor_axis ∧ 0 ≤ el.eccentricity ∧ el.eccentricity < 1 ∧
      s.velocity.magnitude ^ 2 / 2 - Earth.MU / s.position.magnitude = -Earth.MU / (2 * el.semimajor_axis) ∧
      (s.position.cross s.velocity).magnitude ^ 2 = Earth.MU * (el.semimajor_axis * (1 - el.eccentricity ^ 2)) ∧
      s'.epoch = s.epoch ∧
      (s'.position.minus s.position).magnitude ≤ el.semimajor_axis * (5e-25 / (1 - el.eccentricity)) ∧
      (s'.velocity.minus s.velocity).magnitude
        ≤ √(Earth.MU / el.semimajor_axis) * (5e-25 / (1 - el.eccentricity) ^ 3) := by
  have hh : s.position.cross s.velocity ≠ ⟨0, 0, 0⟩ := by
    intro h; rw [h] at hp; simp at hp
  have hr : s.position ≠ ⟨0, 0, 0⟩ := by
    intro h; rw [h] at hh; simp [Vec3.cross] at hh
  obtain ⟨el, s', n, w, X, h1, h2, h3, ha, he, he', hen, hcr, hwu, hX, hpos, hvel⟩ := toIjk_fromIjk s hr hh hb
  have hmu := mu_pos
  have h2e : (0 : ℝ) < 1 - el.eccentricity ^ 2 := by nlinarith
  have hpp : 0 < Earth.MU * (el.semimajor_axis * (1 - el.eccentricity ^ 2)) := by positivity
  have hH := Real.sqrt_pos.mpr hpp
  have hH2 := Real.sq_sqrt hpp.le
  obtain ⟨H, hHe⟩ : ∃ H, H = √(Earth.MU * (el.semimajor_axis * (1 - el.eccentricity ^ 2))) := ⟨_, rfl⟩
  rw [← hHe] at hcr hvel hH hH2
  have hort : s.position.dot w = 0 := by
    have := Vec3.dot_cross_left s.position s.velocity
    rw [hcr, Vec3.dot_scaled_right] at this
    exact (mul_eq_zero.mp this).resolve_left hH.ne'
  have hx : w.x ≠ 0 ∨ w.y ≠ 0 := by
    rw [hcr] at hp
    exact hp.imp (fun h => left_ne_zero_of_mul h) (fun h => left_ne_zero_of_mul h)
  have hXs : X = s.position := by rw [hX]; exact (position_of_latitude hwu hort hx).symm
  have hpp0 : s.position.dot s.position ≠ 0 := by rwa [Ne, Vec3.dot_self_eq_zero]
  rw [hXs, ← velocity_split hcr hpp0] at hvel
  rw [hXs] at hpos
  refine ⟨el, s', n, h1, h2, ha, he, he', hen, ?_, h3, hpos, ?_⟩
  · rw [hcr, Vec3.magnitude_scaled, Vec3.magnitude_unit hwu, mul_one, sq_abs, hH2]
  · rwa [div_div, ← pow_succ'] at hvel

/-- for a bound state in the equatorial plane `to_ijk` returns the position on the x axis at the same distance -/
theorem C102_equatorial_partial (s : State) (hz : s.position.z = 0) (hvz : s.velocity.z = 0)
    (hb : s.velocity.magnitude ^ 2 / 2 < Earth.MU / s.position.magnitude)
    (hp : (s.position.cross s.velocity).z ≠ 0) :
    ∃ el s' n, ClassicalElements.fromIjk s = .ok el ∧ (∀ fuel, n ≤ fuel → el.toIjk fuel = .ok s') ∧
      0 < el.semimajor_axis ∧ 0 ≤ el.eccentricity ∧ el.eccentricity < 1 ∧
      s.velocity.magnitude ^ 2 / 2 - Earth.MU / s.position.magnitude = -Earth.MU / (2 * el.semimajor_axis) ∧
      (s.position.cross s.velocity).magnitude ^ 2 = Earth.MU * (el.semimajor_axis * (1 - el.eccentricity ^ 2)) ∧
      (s'.position.minus ⟨s.position.magnitude, 0, 0⟩).magnitude
        ≤ el.semimajor_axis * (5e-25 / (1 - el.eccentricity)) := by
  have hh : s.position.cross s.velocity ≠ ⟨0, 0, 0⟩ := by
    intro h; rw [h] at hp; simp at hp
  have hr : s.position ≠ ⟨0, 0, 0⟩ := by
    intro h; rw [h] at hh; simp [Vec3.cross] at hh
  obtain ⟨el, s', n, w, X, h1, h2, h3, ha, he, he', hen, hcr, hwu, hX, hpos, hvel⟩ := toIjk_fromIjk s hr hh hb
  have hmu := mu_pos
  have h2e : (0 : ℝ) < 1 - el.eccentricity ^ 2 := by nlinarith
  have hpp : 0 < Earth.MU * (el.semimajor_axis * (1 - el.eccentricity ^ 2)) := by positivity
  have hH := Real.sqrt_pos.mpr hpp
  have hH2 := Real.sq_sqrt hpp.le
  have hwx : w.x = 0 := by
    have := congrArg Vec3.x hcr
    simp only [Vec3.cross, Vec3.scaled, hz, hvz] at this
    exact (mul_eq_zero.mp (by linarith : w.x * _ = 0)).resolve_right hH.ne'
  have hwy : w.y = 0 := by
    have := congrArg Vec3.y hcr
    simp only [Vec3.cross, Vec3.scaled, hz, hvz] at this
    exact (mul_eq_zero.mp (by linarith : w.y * _ = 0)).resolve_right hH.ne'
  have hO : raanFromW w = 0 := by simp [raanFromW, hwx, hwy, pyAtan2_zero, wrapNeg_of_nonneg]
  have hu : uFromRW s.position w = 0 := by simp [uFromRW, hwx, hwy, hz, pyAtan2_zero, wrapNeg_of_nonneg]
  have hXs : X = ⟨s.position.magnitude, 0, 0⟩ := by
    rw [hX, hO, hu]
    ext <;> simp [nodeN, nodeM, Vec3.plus, Vec3.scaled]
  rw [hXs] at hpos
  refine ⟨el, s', n, h1, h2, ha, he, he', hen, ?_, hpos⟩
  rw [hcr, Vec3.magnitude_scaled, Vec3.magnitude_unit hwu, mul_one, sq_abs, hH2]

/-- **C102 is false of the code.** A satellite on a circular geostationary orbit above the y axis comes back more than
fifty thousand kilometres away, with any fuel for which the conversion returns. -/
theorem C102_violated (ep : Epoch) :
    ∃ s : State, s.epoch = ep ∧ s.velocity.magnitude ^ 2 / 2 < Earth.MU / s.position.magnitude ∧
      s.position.cross s.velocity ≠ ⟨0, 0, 0⟩ ∧
      ∃ el s' n, ClassicalElements.fromIjk s = .ok el ∧ (∀ fuel, n ≤ fuel → el.toIjk fuel = .ok s') ∧
        50000 < (s'.position.minus s.position).magnitude := by
  have hmu := mu_pos
  have hq : (0 : ℝ) < Earth.MU / 42164 := by positivity
  have hv := Real.sqrt_pos.mpr hq
  have hv2 := Real.sq_sqrt hq.le
  obtain ⟨v, hve⟩ : ∃ v, v = √(Earth.MU / 42164) := ⟨_, rfl⟩
  rw [← hve] at hv hv2
  have hpm : (Vec3.mk 0 42164 0).magnitude = 42164 :=
    Vec3.magnitude_of_dot (by norm_num) (by norm_num [Vec3.dot])
  have hvm : (Vec3.mk (-v) 0 0).magnitude = v := Vec3.magnitude_of_dot hv.le (by simp only [Vec3.dot]; ring)
  have hcr : (Vec3.mk 0 42164 0).cross ⟨-v, 0, 0⟩ = ⟨0, 0, 42164 * v⟩ := by
    ext <;> simp [Vec3.cross]
  obtain ⟨s, hse⟩ : ∃ s : State, s = State.new ep ⟨0, 42164, 0⟩ ⟨-v, 0, 0⟩ := ⟨_, rfl⟩
  have hsp : s.position = ⟨0, 42164, 0⟩ := by rw [hse]; rfl
  have hsv : s.velocity = ⟨-v, 0, 0⟩ := by rw [hse]; rfl
  have hb : s.velocity.magnitude ^ 2 / 2 < Earth.MU / s.position.magnitude := by
    rw [hsp, hsv, hpm, hvm, hv2]; linarith
  have hc : s.position.cross s.velocity = ⟨0, 0, 42164 * v⟩ := by rw [hsp, hsv, hcr]
  obtain ⟨el, s', n, h1, h2, ha, he, he', hen, hhm, hpos⟩ := C102_equatorial_partial s (by rw [hsp]) (by rw [hsv]) hb
    (by rw [hc]; positivity)
  refine ⟨s, by rw [hse]; rfl, hb, by rw [hc]; simp [hv.ne'], el, s', n, h1, h2, ?_⟩
  rw [hsp, hpm] at hpos
  have hA : el.semimajor_axis = 42164 := by
    rw [hsp, hsv, hpm, hvm, hv2] at hen
    have e1 : Earth.MU / 42164 / 2 - Earth.MU / 42164 = -Earth.MU * (1 / (2 * 42164)) := by ring
    have e2 : -Earth.MU / (2 * el.semimajor_axis) = -Earth.MU * (1 / (2 * el.semimajor_axis)) := by ring
    rw [e1, e2] at hen
    have := mul_left_cancel₀ (neg_ne_zero.mpr hmu.ne') hen
    rw [one_div, one_div, inv_inj] at this
    linarith
  have hE : el.eccentricity = 0 := by
    have hcm : (s.position.cross s.velocity).magnitude = 42164 * v := by
      rw [hc]; exact Vec3.magnitude_of_dot (by positivity) (by simp only [Vec3.dot]; ring)
    rw [hcm, mul_pow, hv2, hA] at hhm
    have : Earth.MU * 42164 * el.eccentricity ^ 2 = 0 := by linarith
    have h0 := (mul_eq_zero.mp this).resolve_left (by positivity)
    exact pow_eq_zero_iff (two_ne_zero) |>.mp h0
  rw [hA, hE] at hpos
  norm_num at hpos
  -- the x and y coordinates of the returned position
  have b1 := Vec3.magnitude_sq (s'.position.minus ⟨42164, 0, 0⟩)
  have b2 := Vec3.magnitude_sq (s'.position.minus s.position)
  rw [hsp] at b2 ⊢
  simp only [Vec3.minus] at b1 b2 hpos ⊢
  have b0 := Vec3.magnitude_nonneg ⟨s'.position.x - 42164, s'.position.y - 0, s'.position.z - 0⟩
  have c1 : (s'.position.x - 42164) ^ 2 ≤ 1 ∧ s'.position.y ^ 2 ≤ 1 := by
    constructor <;> nlinarith [sq_nonneg s'.position.x, sq_nonneg s'.position.y, sq_nonneg s'.position.z,
      sq_nonneg (s'.position.x - 42164)]
  have c2 := abs_le_of_sq_le_sq' (by linarith [c1.1] : (s'.position.x - 42164) ^ 2 ≤ 1 ^ 2) zero_le_one
  have c3 := abs_le_of_sq_le_sq' (by linarith [c1.2] : s'.position.y ^ 2 ≤ 1 ^ 2) zero_le_one
  apply lt_of_pow_lt_pow_left₀ 2 (Vec3.magnitude_nonneg _)
  rw [b2]
  nlinarith [sq_nonneg s'.position.z]

/-- an inclined elliptic orbit meets the hypotheses -/
example : ∃ el s' n, ClassicalElements.fromIjk (State.new ⟨0⟩ ⟨7000, 0, 0⟩ ⟨0, 6, 5⟩) = .ok el ∧
    (∀ fuel, n ≤ fuel → el.toIjk fuel = .ok s') ∧ s'.epoch = ⟨0⟩ := by
  have hpm : (Vec3.mk 7000 0 0).magnitude = 7000 :=
    Vec3.magnitude_of_dot (by norm_num) (by norm_num [Vec3.dot])
  obtain ⟨el, s', n, h1, h2, _, _, _, _, _, h3, _⟩ :=
    C102_round_trip_partial (State.new ⟨0⟩ ⟨7000, 0, 0⟩ ⟨0, 6, 5⟩)
      (by
        show (Vec3.mk 0 6 5).magnitude ^ 2 / 2 < Earth.MU / (Vec3.mk 7000 0 0).magnitude
        rw [hpm, Vec3.magnitude_sq]; norm_num [Earth.MU])
      (by right; show ((Vec3.mk 7000 0 0).cross ⟨0, 6, 5⟩).y ≠ 0; norm_num [Vec3.cross])
  exact ⟨el, s', n, h1, h2, h3⟩

end Openspace
