import Verif.Lemmas.Ferrari
import Verif.Lemmas.Angles
import Verif.Props.Positions

/-!
# The ITRF to geodetic conversion in terms of its quartic
-/

namespace Openspace

open Real Spec

noncomputable section

/-- polar radius, as the code writes it -/
def gb : ℝ := Earth.RADIUS - Earth.FLATTENING * Earth.RADIUS

/-- second eccentricity squared, as the code writes it -/
def gEps : ℝ := Earth.RADIUS * Earth.RADIUS / (gb * gb) - 1

theorem gb_pos : 0 < gb := by norm_num [gb, Earth.RADIUS, Earth.FLATTENING]
theorem gR_pos : 0 < Earth.RADIUS := by norm_num [Earth.RADIUS]

theorem gb_sq : gb * gb = Earth.RADIUS ^ 2 * (1 - geoE2) := by unfold gb geoE2; ring

theorem one_sub_geoE2_pos : 0 < 1 - geoE2 := by linarith [geoE2_lt]

theorem gE2_eq : 1 - gb * gb / (Earth.RADIUS * Earth.RADIUS) = geoE2 := by
  rw [gb_sq]; have := gR_pos; field_simp; ring

theorem gEps_eq : gEps = geoE2 / (1 - geoE2) := by
  unfold gEps; rw [gb_sq]; have := gR_pos; have := one_sub_geoE2_pos; field_simp; ring

theorem gEps_pos : 0 < gEps := by
  rw [gEps_eq]; exact div_pos geoE2_pos one_sub_geoE2_pos

/-- distance from the polar axis -/
def rho (v : Vec3) : ℝ := √(v.x * v.x + v.y * v.y)

/-- `p` of the code -/
def gP (v : Vec3) : ℝ := |v.z| / gEps

/-- `s` of the code -/
def gS (v : Vec3) : ℝ := rho v * rho v / (geoE2 * gEps)

/-- `q` of the code: positive exactly where the closed form is defined -/
def gQ (v : Vec3) : ℝ := gP v * gP v - gb * gb + gS v

/-- the equation of the foot of the normal through the point, `δ` being the distance of the foot from the
equatorial plane -/
def Foot (v : Vec3) (δ : ℝ) : Prop := gS v * δ ^ 2 = (gb ^ 2 - δ ^ 2) * (δ + gP v) ^ 2

/-- the end of the conversion, from the signed `z` coordinate of the foot -/
def geoFinish (v : Vec3) (d : ℝ) : LLA :=
  let n := Earth.RADIUS * √(1 + gEps * d * d / (gb * gb))
  let lat := arcsin ((gEps + 1) * (d / n))
  ⟨lat, wrapNeg (pyAtan2 v.y v.x), rho v * cos lat + v.z * sin lat - Earth.RADIUS * Earth.RADIUS / n⟩

theorem gP_nonneg (v : Vec3) : 0 ≤ gP v := div_nonneg (abs_nonneg _) gEps_pos.le

theorem gS_nonneg (v : Vec3) : 0 ≤ gS v :=
  div_nonneg (mul_self_nonneg _) (mul_pos geoE2_pos gEps_pos).le

theorem foot_iff_quartic (v : Vec3) (hq : 0 < gQ v) (x : ℝ) :
    Foot v (√(gQ v) * x) ↔ quartic (gP v / √(gQ v)) (gb * gb / gQ v) x = 0 := by
  obtain ⟨σ, hσ⟩ : ∃ σ, σ = √(gQ v) := ⟨_, rfl⟩
  have hσ0 : 0 < σ := hσ ▸ Real.sqrt_pos.mpr hq
  have hσ2 : gQ v = σ ^ 2 := by rw [hσ, Real.sq_sqrt hq.le]
  have hs : gS v = σ ^ 2 - gP v * gP v + gb * gb := by rw [← hσ2]; unfold gQ; ring
  unfold Foot quartic
  rw [← hσ, hs, hσ2]
  have key : (σ ^ 2 - gP v * gP v + gb * gb) * (σ * x) ^ 2 - (gb ^ 2 - (σ * x) ^ 2) * (σ * x + gP v) ^ 2
      = σ ^ 4 * (x ^ 4 + 2 * (gP v / σ) * x ^ 3 + x ^ 2 - 2 * (gb * gb / σ ^ 2) * (gP v / σ) * x
        - gb * gb / σ ^ 2 * (gP v / σ) ^ 2) := by
    field_simp; ring
  constructor
  · intro h
    have : σ ^ 4 * (x ^ 4 + 2 * (gP v / σ) * x ^ 3 + x ^ 2 - 2 * (gb * gb / σ ^ 2) * (gP v / σ) * x
        - gb * gb / σ ^ 2 * (gP v / σ) ^ 2) = 0 := by rw [← key, h, sub_self]
    exact (mul_eq_zero.mp this).resolve_left (by positivity)
  · intro h
    rw [h, mul_zero] at key
    linarith

theorem foot_le {v : Vec3} {δ : ℝ} (h0 : 0 ≤ δ) (h : Foot v δ) : δ ≤ gb := by
  rcases h0.eq_or_lt with h0 | h0
  · rw [← h0]; exact gb_pos.le
  · by_contra hlt
    push Not at hlt
    have h1 : gb ^ 2 - δ ^ 2 < 0 := by nlinarith [gb_pos]
    have h2 : 0 < (δ + gP v) ^ 2 := by have := gP_nonneg v; positivity
    have h3 : 0 ≤ gS v * δ ^ 2 := mul_nonneg (gS_nonneg v) (sq_nonneg _)
    unfold Foot at h
    nlinarith [mul_neg_of_neg_of_pos h1 h2]

theorem geo_n_sq (d : ℝ) : (Earth.RADIUS * √(1 + gEps * d * d / (gb * gb))) ^ 2
    = Earth.RADIUS ^ 2 + geoE2 * d ^ 2 / (1 - geoE2) ^ 2 := by
  have h1 : 0 ≤ 1 + gEps * d * d / (gb * gb) := by
    have : 0 ≤ gEps * (d * d) := mul_nonneg gEps_pos.le (mul_self_nonneg d)
    rw [mul_assoc]; have := gb_pos; positivity
  rw [mul_pow, Real.sq_sqrt h1, gEps_eq, gb_sq]
  have := one_sub_geoE2_pos; have := gR_pos
  field_simp

theorem geo_n_pos (d : ℝ) : 0 < Earth.RADIUS * √(1 + gEps * d * d / (gb * gb)) := by
  apply mul_pos gR_pos (Real.sqrt_pos.mpr _)
  have : 0 ≤ gEps * (d * d) := mul_nonneg gEps_pos.le (mul_self_nonneg d)
  rw [mul_assoc]; have := gb_pos; positivity

theorem geo_sin_sq {d : ℝ} (hd : d ^ 2 ≤ gb ^ 2) :
    ((gEps + 1) * (d / (Earth.RADIUS * √(1 + gEps * d * d / (gb * gb))))) ^ 2 ≤ 1 := by
  have hn := geo_n_pos d
  have hn2 := geo_n_sq d
  obtain ⟨n, hne⟩ : ∃ n, n = Earth.RADIUS * √(1 + gEps * d * d / (gb * gb)) := ⟨_, rfl⟩
  rw [← hne] at hn hn2 ⊢
  have h1 := one_sub_geoE2_pos
  have he : gEps + 1 = 1 / (1 - geoE2) := by rw [gEps_eq]; field_simp; ring
  rw [he, mul_pow, div_pow, div_pow, hn2, ← hn2, one_pow]
  rw [div_mul_div_comm, one_mul, div_le_one (by positivity), hn2]
  have hb := gb_sq
  have : geoE2 * d ^ 2 / (1 - geoE2) ^ 2 * (1 - geoE2) ^ 2 = geoE2 * d ^ 2 := by field_simp
  nlinarith

set_option maxHeartbeats 1000000 in
/-- wherever `q > 0` the conversion succeeds, and computes the only foot of a normal -/
theorem itrfToLla_ok (v : Vec3) (hq : 0 < gQ v) :
    ∃ δ, 0 ≤ δ ∧ (v.z ≠ 0 → 0 < δ) ∧ Foot v δ ∧ (∀ y, 0 < y → Foot v y → y = δ) ∧
      PositionConvert.itrfToLla v = .ok (geoFinish v (pySign v.z * δ)) := by
  obtain ⟨σ, hσ⟩ : ∃ σ, σ = √(gQ v) := ⟨_, rfl⟩
  have hσ0 : 0 < σ := hσ ▸ Real.sqrt_pos.mpr hq
  have hσ2 : σ ^ 2 = gQ v := by rw [hσ, Real.sq_sqrt hq.le]
  obtain ⟨u, hu⟩ : ∃ u, u = gP v / σ := ⟨_, rfl⟩
  obtain ⟨β, hβ⟩ : ∃ β, β = gb * gb / gQ v := ⟨_, rfl⟩
  have hu0 : 0 ≤ u := hu ▸ div_nonneg (gP_nonneg v) hσ0.le
  have hβ0 : 0 < β := hβ ▸ div_pos (mul_pos gb_pos gb_pos) hq
  have hsq : gS v / gQ v = 1 - u ^ 2 + β := by
    rw [hu, hβ, div_pow, hσ2]; have : gS v = gQ v - gP v * gP v + gb * gb := by unfold gQ; ring
    rw [this]; field_simp
  have hsq0 : 0 ≤ gS v / gQ v := div_nonneg (gS_nonneg v) hq.le
  obtain ⟨w2, hw2⟩ : ∃ w2, w2 = gb * gb * u * u / gQ v := ⟨_, rfl⟩
  have hw2' : w2 = β * u ^ 2 := by rw [hw2, hβ]; ring
  obtain ⟨P, hP⟩ : ∃ P, P = 27 * w2 * gS v / gQ v := ⟨_, rfl⟩
  have hP' : P = 27 * (β * u ^ 2 * (1 - u ^ 2 + β)) := by rw [hP, ← hsq, hw2']; ring
  have hP0 : 0 ≤ P := by rw [hP', ← hsq]; positivity
  obtain ⟨Q, hQ⟩ : ∃ Q, Q = (√(P + 1) + √P) ^ ((2 : ℝ) / 3) := ⟨_, rfl⟩
  have hr := resolvent hP0
  simp only [← hQ] at hr
  obtain ⟨t, ht⟩ : ∃ t, t = (1 + Q + 1 / Q) / 6 := ⟨_, rfl⟩
  rw [← ht] at hr
  obtain ⟨hQ0, ht2, hres⟩ := hr
  have hres' : 2 * t ^ 3 - t ^ 2 = β * u ^ 2 * (1 - u ^ 2 + β) := by rw [hres, hP']; ring
  obtain ⟨c, hc⟩ : ∃ c, c = √(u ^ 2 - 1 + 2 * t) := ⟨_, rfl⟩
  obtain ⟨m, hm⟩ : ∃ m, m = √(t ^ 2 + β * u ^ 2) := ⟨_, rfl⟩
  obtain ⟨w, hw⟩ : ∃ w, w = (c - u) / 2 := ⟨_, rfl⟩
  obtain ⟨base, hbase⟩ : ∃ base, base = m - u * w - t / 2 - 1 / 4 := ⟨_, rfl⟩
  obtain ⟨hb0, hx0, hxp, hx, huniq⟩ := ferrari hu0 hβ0 ht2 hres' hc hm hw hbase
  obtain ⟨x, hxe⟩ : ∃ x, x = w + √base := ⟨_, rfl⟩
  rw [← hxe] at hx0 hxp hx huniq
  have hfq := foot_iff_quartic v hq
  rw [← hσ, ← hu, ← hβ] at hfq
  have hfoot : Foot v (σ * x) := (hfq x).mpr hx
  have hδ0 : 0 ≤ σ * x := mul_nonneg hσ0.le hx0
  have hδb := foot_le hδ0 hfoot
  refine ⟨σ * x, hδ0, ?_, hfoot, ?_, ?_⟩
  · intro hz
    apply mul_pos hσ0 (hxp _)
    rw [hu]; exact div_pos (div_pos (abs_pos.mpr hz) gEps_pos) hσ0
  · intro y hy hf
    have : Foot v (σ * (y / σ)) := by rwa [mul_div_cancel₀ _ hσ0.ne']
    rw [← huniq _ (div_pos hy hσ0) ((hfq _).mp this), mul_div_cancel₀ _ hσ0.ne']
  · have lits : (27.0 : ℝ) = 27 ∧ (1.0 : ℝ) = 1 ∧ (2.0 : ℝ) = 2 ∧ (3.0 : ℝ) = 3 ∧ (6.0 : ℝ) = 6 ∧
        (0.25 : ℝ) = 1 / 4 := by norm_num
    obtain ⟨l27, l1, l2, l3, l6, l25⟩ := lits
    have hpc : |v.z| / gEps = gP v := rfl
    have hrc : √(v.x * v.x + v.y * v.y) = rho v := rfl
    have hsc : rho v * rho v / (geoE2 * gEps) = gS v := rfl
    have hqc : gP v * gP v - gb * gb + gS v = gQ v := rfl
    have hsgn : (pySign v.z * (σ * x)) ^ 2 ≤ gb ^ 2 := by
      rw [mul_pow]
      have h1 : pySign v.z ^ 2 ≤ 1 := by unfold pySign; split_ifs <;> norm_num
      have h2 : (σ * x) ^ 2 ≤ gb ^ 2 := pow_le_pow_left₀ hδ0 hδb 2
      nlinarith [sq_nonneg (σ * x)]
    have hsin := geo_sin_sq hsgn
    have hn := geo_n_pos (pySign v.z * (σ * x))
    have hrad : 0 ≤ 1 + gEps * (pySign v.z * (σ * x)) * (pySign v.z * (σ * x)) / (gb * gb) := by
      have : 0 ≤ gEps * ((pySign v.z * (σ * x)) * (pySign v.z * (σ * x))) :=
        mul_nonneg gEps_pos.le (mul_self_nonneg _)
      rw [mul_assoc gEps]; have := gb_pos; positivity
    have hE : Earth.RADIUS * Earth.RADIUS / (gb * gb) - 1 = gEps := rfl
    have hB : Earth.RADIUS - Earth.FLATTENING * Earth.RADIUS = gb := rfl
    simp only [PositionConvert.itrfToLla, bind_eq_ok, pySqrt_eq_ok, pyDiv_eq_ok, pyPow_eq_ok, pyAsin_eq_ok,
      l27, l1, l2, l3, l6, l25, hB, hE, gE2_eq, pyAbs, sqrtNN, hrc, hpc, hsc, hqc]
    refine ⟨σ, ⟨hq.le, hσ.symm⟩, u, ⟨hσ0.ne', hu.symm⟩, w2, ⟨hq.ne', hw2.symm⟩, P, ⟨hq.ne', hP.symm⟩,
      _, ⟨by linarith, rfl⟩, _, ⟨hP0, rfl⟩, Q, ⟨by positivity, hQ.symm⟩, _, ⟨hQ0.ne', rfl⟩, ?_⟩
    rw [← ht]
    refine ⟨c, ⟨by nlinarith, by rw [hc, sq]⟩, m, ⟨by rw [hw2']; positivity, by rw [hm, hw2', sq t]⟩, ?_⟩
    rw [← hw, ← hbase, if_neg (not_lt.mpr hb0)]
    refine ⟨_, ⟨hb0, rfl⟩, ?_⟩
    rw [← hxe, mul_assoc (pySign v.z)]
    refine ⟨_, ⟨hrad, rfl⟩, _, ⟨hn.ne', rfl⟩, _, ⟨abs_le.mp ((sq_le_one_iff_abs_le_one _).mp hsin), rfl⟩, _,
      ⟨hn.ne', rfl⟩, ?_⟩
    simp only [pure_eq_ok, geoFinish, wrapNeg, pyCos, pySin, rho, mul_comm pyPi 2]

end

end Openspace
