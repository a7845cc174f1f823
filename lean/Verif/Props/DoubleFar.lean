import Verif.Lemmas.DoubleLatitude

/-!
# Geodetic coordinates of distant positions in double precision (C106, continued)

The margin at the poles grows with the distance; there is no other limit below 31 million kilometres.
-/

namespace Openspace

open Real Spec

namespace F64

/-- the error of the foot of a distant position -/
theorem far_error {σ r e U g : ℝ} (hσ0 : 0 < σ) (hσr : σ ≤ 149 * r) (r0 : 0 < r) (hr1 : r ≤ 3.2e7) (hU : 1 / 2 ≤ U) (hg : 6356 ≤ g)
    (he0 : 0 ≤ e) (he : e ≤ 443 * u / U + 813 * u / (0.97 * (g / σ) * U) + 202 * u) :
    101 / 100 * (σ * e) + 1 / 10 ^ 6 ≤ 7e-4 + 1e-12 * r ^ 2 := by
  have hu := u_pos
  have hut := u_tiny
  have a1 : 443 * u / U ≤ 886 * u := by
    rw [div_le_iff₀ (by linarith)]; nlinarith
  have a2 : 813 * u / (0.97 * (g / σ) * U) ≤ 0.27 * u * σ := by
    rw [div_le_iff₀ (by positivity)]
    have : 0.27 * u * σ * (0.97 * (g / σ) * U) = 0.27 * u * (0.97 * g * U) := by field_simp
    rw [this]
    have h1 : (6356 : ℝ) * (1 / 2) ≤ g * U := mul_le_mul hg hU (by norm_num) (by linarith)
    nlinarith
  have a3 : e ≤ 1088 * u + 0.27 * u * σ := by linarith
  have a4 : σ * e ≤ 149 * r * (1088 * u + 0.27 * u * (149 * r)) := by
    refine mul_le_mul hσr (a3.trans ?_) he0 (by positivity)
    have := mul_le_mul_of_nonneg_left hσr (show 0 ≤ 0.27 * u by positivity)
    linarith
  have a5 : 149 * r * (1088 * u + 0.27 * u * (149 * r)) = u * (162112 * r + 5994.27 * r ^ 2) := by ring
  have a6 : u * (162112 * r + 5994.27 * r ^ 2) ≤ 12 / 10 ^ 17 * (162112 * r + 5994.27 * r ^ 2) :=
    mul_le_mul_of_nonneg_right hut (by positivity)
  have a7 : (0 : ℝ) ≤ r ^ 2 := by positivity
  norm_num at *
  linarith

/-- the foot computed in double precision lies below the pole when the exact one lies low enough for its distance -/
theorem foot_below_far {lib : Libm} (hlib : PowAccurate lib) {v : Vec3} (h1 : 6000 ≤ v.magnitude) {κ δ : ℝ} (hκ1 : κ ≤ 1)
    (hκ : 3.1e-6 + 1e-15 * v.magnitude ^ 2 ≤ κ) (hδ1 : v.z ≠ 0 → δ ≤ gb * (1 - κ / 2))
    (huniq : ∀ y, 0 < y → Foot v y → y = δ) :
    ∃ d, footHeight lib (rnd √(rnd (rnd (v.x * v.x) + rnd (v.y * v.y)))) v.z = .ok d ∧ |d| ≤ gb * (1 - 1 / 10 ^ 6) := by
  obtain ⟨σ, σ', x, a, e, U, β, S, t, c, w, base, hval, hσ, hU, hβ, hσ0, nσ, e1, e2, e3, e4, hU0, hU1, hβ0, hβ1, hS0, hS1,
    ht1, hres, hc, hw, hx, hx0, hxp, hxq⟩ := foot_pair hlib h1
  obtain ⟨hq, -⟩ := small_beta h1
  refine ⟨_, hval, ?_⟩
  by_cases hz : v.z = 0
  · rw [hz, pySign, if_neg (lt_irrefl _), if_neg (lt_irrefl _), zero_mul, rnd_zero, zero_mul, rnd_zero, abs_zero]
    exact mul_nonneg gb_pos.le (by norm_num)
  have hfq := foot_iff_quartic v hq x
  rw [← hσ, ← hU, ← hβ] at hfq
  replace hδ1 := hδ1 hz
  have hδx : σ * x = δ := huniq _ (mul_pos hσ0 (hxp hz)) (hfq.mpr hxq)
  have hsg : |pySign v.z| ≤ 1 := by unfold pySign; split_ifs <;> norm_num
  have hgb : 6356 ≤ gb := by norm_num [gb, Earth.RADIUS, Earth.FLATTENING]
  have he0 : 0 ≤ e := (abs_nonneg _).trans e1
  obtain ⟨r, hr⟩ : ∃ r, r = v.magnitude := ⟨_, rfl⟩
  rw [← hr] at h1 hκ
  have r0 : 0 < r := by linarith
  have hr1 : r ≤ 3.2e7 := by
    by_contra hn; push Not at hn
    have := pow_lt_pow_left₀ hn (by norm_num) two_ne_zero
    norm_num at *; linarith
  have hσr : σ ≤ 149 * r := by
    have hr2 : r ^ 2 = v.x ^ 2 + v.y ^ 2 + v.z ^ 2 := by rw [hr, Vec3.magnitude_sq]; ring
    have h3 := (gQ_bounds hr2).2
    rw [hσ, Real.sqrt_le_left (by positivity)]
    nlinarith
  have hr2 : 0 ≤ r ^ 2 := sq_nonneg r
  have hxb : σ * x ≤ gb := by
    rw [hδx]
    have : gb * (1 - κ / 2) ≤ gb * 1 := mul_le_mul_of_nonneg_left (by norm_num at *; linarith) gb_pos.le
    linarith
  have hd := product_near hsg nσ hσ0 hx0 hxb e1
  refine hd.trans ?_
  rcases le_total U (1 / 2) with hlow | hhigh
  · have hx2 := foot_low hS1 hxq hU0 hlow hβ0 hβ1 hx0
    have h3 : (σ * x) ^ 2 ≤ (52 / 100 * gb) ^ 2 := by
      have e : σ ^ 2 * β = gb ^ 2 := by
        rw [hβ, hσ, Real.sq_sqrt hq.le]; field_simp
      rw [mul_pow, mul_pow, ← e]
      have := mul_le_mul_of_nonneg_left hx2 (sq_nonneg σ)
      linarith
    have h4 := (_root_.abs_le.mp (abs_le_of_sq_le_sq h3 (by positivity))).2
    have h5 : σ * e ≤ 149 * r * (5 / 10 ^ 7) := mul_le_mul hσr e2 he0 (by positivity)
    norm_num at *; linarith
  · have Up : 0 < U := by linarith
    have hroot := foot_root hS1 hxq Up hU1 hS0 hβ0 hβ1 hx0 ht1 hres hc hw hx
    have hs : √β = gb / σ := by
      rw [hβ, Real.sqrt_div (mul_self_nonneg gb), Real.sqrt_mul_self gb_pos.le, hσ]
    have hg0 : 0 < gb := gb_pos
    have he := e4 _ Up (by rw [hs]; positivity) hroot
    rw [hs] at he
    have h5 := far_error hσ0 hσr r0 hr1 hhigh hgb he0 he
    rw [hδx]
    have h6 : 6356 * (κ / 2 - 1 / 10 ^ 6) ≤ gb * (κ / 2 - 1 / 10 ^ 6) :=
      mul_le_mul_of_nonneg_right hgb (by norm_num at *; linarith)
    norm_num at *
    linarith

end F64

/-- Positions at any distance from 6000 km: they are converted if the square of the cosine of the latitude is at least 3.1e-6 and 1e-15
of the square of the distance. -/
theorem C106_far_partial (lib : F64.Libm) (hlib : F64.PowAccurate lib) (pos : Vec3) (h1 : 6000 ≤ pos.magnitude)
    (l : LLA) (hl : PositionConvert.itrfToLla pos = .ok l)
    (hlat : 3.1e-6 + 1e-15 * pos.magnitude ^ 2 ≤ cos l.latitude ^ 2) : ∃ l', F64.itrfToLla lib pos = .ok l' := by
  obtain ⟨hq, -⟩ := F64.small_beta h1
  obtain ⟨δ, hδ0, -, hδ, huniq, hok⟩ := itrfToLla_ok pos hq
  rw [hok] at hl
  have hl' : l = geoFinish pos (pySign pos.z * δ) := by injection hl with hl; exact hl.symm
  obtain ⟨κ, hκ⟩ : ∃ κ, κ = cos l.latitude ^ 2 := ⟨_, rfl⟩
  have hκ1 : κ ≤ 1 := hκ ▸ cos_sq_le_one _
  have hκ0 : 0 ≤ κ := hκ ▸ sq_nonneg _
  have hδ1 : pos.z ≠ 0 → δ ≤ gb * (1 - κ / 2) := by
    intro hz
    obtain ⟨d, hd⟩ : ∃ d, d = pySign pos.z * δ := ⟨_, rfl⟩
    have hdd : d ^ 2 = δ ^ 2 := by
      rw [hd, mul_pow]
      have : pySign pos.z ^ 2 = 1 := by
        unfold pySign
        rcases lt_or_gt_of_ne hz with h | h
        · rw [if_neg (not_lt.mpr h.le), if_pos h]; norm_num
        · rw [if_pos h]; norm_num
      rw [this, one_mul]
    have hd2 : d ^ 2 ≤ gb ^ 2 := by rw [hdd]; exact pow_le_pow_left₀ hδ0 (foot_le hδ0 hδ) 2
    have hsin := geo_sin_sq hd2
    have hn := geo_n_pos d
    have hn2 := geo_n_sq d
    rw [← hd] at hl'
    have hla : l.latitude = arcsin ((gEps + 1) * (d / (Earth.RADIUS * √(1 + gEps * d * d / (gb * gb))))) := by
      rw [hl', geoFinish]
    obtain ⟨n, hne⟩ : ∃ n, n = Earth.RADIUS * √(1 + gEps * d * d / (gb * gb)) := ⟨_, rfl⟩
    rw [← hne] at hn hn2 hsin hla
    have hs1 := abs_le.mp ((sq_le_one_iff_abs_le_one _).mp hsin)
    have hs : sin l.latitude = (gEps + 1) * (d / n) := by rw [hla, sin_arcsin hs1.1 hs1.2]
    have hcs := sin_sq_add_cos_sq l.latitude
    rw [hs, ← hκ] at hcs
    have := F64.foot_of_sin hn.ne' hn2 hd2 (κ := κ) (by linarith)
    rw [hdd] at this
    have h3 : δ ^ 2 ≤ (gb * (1 - κ / 2)) ^ 2 := by
      rw [mul_pow]
      have : gb ^ 2 * (1 - κ) ≤ gb ^ 2 * (1 - κ / 2) ^ 2 :=
        mul_le_mul_of_nonneg_left (by nlinarith [sq_nonneg κ]) (sq_nonneg _)
      linarith
    exact (abs_le.mp (abs_le_of_sq_le_sq h3 (mul_nonneg gb_pos.le (by linarith)))).2
  obtain ⟨d, hd, hdb⟩ := F64.foot_below_far hlib h1 hκ1 (by rw [hκ]; exact hlat) hδ1 huniq
  exact (F64.itrfToLla_end lib pos rfl hd).2 (F64.arc_ok hdb)

/-- In particular all positions between 6000 km and 500000 km from the centre, beyond the orbit of the Moon, at latitudes within 89
degrees. -/
theorem C106_moon_partial (lib : F64.Libm) (hlib : F64.PowAccurate lib) (pos : Vec3) (h1 : 6000 ≤ pos.magnitude)
    (h2 : pos.magnitude ≤ 500000) (l : LLA) (hl : PositionConvert.itrfToLla pos = .ok l)
    (hlat : |l.latitude| ≤ 89 * (π / 180)) : ∃ l', F64.itrfToLla lib pos = .ok l' := by
  refine C106_far_partial lib hlib pos h1 l hl ?_
  have hpi := Real.pi_gt_d4
  have hpi2 := Real.pi_lt_d4
  have h3 : cos (π / 2 - π / 180) ≤ cos l.latitude := by
    rw [← cos_abs l.latitude]
    apply cos_le_cos_of_nonneg_of_le_pi (abs_nonneg _) (by linarith)
    linarith
  rw [cos_pi_div_two_sub] at h3
  have h4 := sin_gt_sub_cube (x := π / 180) (by positivity)
  have h5 : (17 / 1000 : ℝ) ≤ π / 180 - (π / 180) ^ 3 / 6 := by
    have a1 : (1745 / 10 ^ 5 : ℝ) ≤ π / 180 := by norm_num at hpi ⊢; linarith
    have a2 : (π / 180) ^ 3 ≤ (2 / 10 ^ 2) ^ 3 := by
      apply pow_le_pow_left₀ (by positivity); norm_num at hpi2 ⊢; linarith
    norm_num at *; linarith
  have h6 := pow_le_pow_left₀ (by norm_num) (h5.trans (h4.le.trans h3)) 2
  have h7 : pos.magnitude ^ 2 ≤ 500000 ^ 2 := pow_le_pow_left₀ (by linarith) h2 2
  norm_num at *
  linarith

/-- a position at the distance of the Moon, over the equator -/
example (lib : F64.Libm) (hlib : F64.PowAccurate lib) : ∃ l, F64.itrfToLla lib ⟨0, 384400, 0⟩ = .ok l := by
  have hm : (Vec3.mk 0 384400 0).magnitude = 384400 := Vec3.magnitude_of_dot (by norm_num) (by norm_num [Vec3.dot])
  obtain ⟨δ, -, -, -, -, hok⟩ := itrfToLla_ok ⟨0, 384400, 0⟩ (F64.small_beta (by rw [hm]; norm_num)).1
  refine C106_moon_partial lib hlib _ (by rw [hm]; norm_num) (by rw [hm]; norm_num) _ hok ?_
  simp [geoFinish, pySign]
  positivity

end Openspace
