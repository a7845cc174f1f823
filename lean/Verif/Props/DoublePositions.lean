import Verif.Lemmas.DoubleGeodetic
import Verif.Props.Geodetic

/-!
# Property C106: geodetic coordinates in double precision
-/

namespace Openspace

open Real Spec

namespace F64

theorem rho_near (v : Vec3) : Near (rnd √(rnd (rnd (v.x * v.x) + rnd (v.y * v.y)))) (rho v) 4 := by
  have h1 := (near_rnd (v.x * v.x)).add (near_rnd (v.y * v.y)) (mul_self_nonneg _) (mul_self_nonneg _)
  have h2 := (h1.round' (by norm_num) (by norm_num)).mono (show _ ≤ (2.5 : ℝ) by norm_num)
  have h3 := near_sqrt h2 (add_nonneg (mul_self_nonneg _) (mul_self_nonneg _))
    (rnd_nonneg (add_nonneg (rnd_nonneg (mul_self_nonneg _)) (rnd_nonneg (mul_self_nonneg _))))
  exact (h3.round' (by norm_num) (by norm_num)).mono (by norm_num)

theorem gP_near (v : Vec3) : Near (rnd (|v.z| / geoEps2)) (gP v) 110 :=
  ((((Near.refl |v.z|).div' near_eps gEps_pos.ne' (by norm_num) (by norm_num) (by norm_num) (by norm_num)).2).round'
    (by norm_num) (by norm_num)).mono (by norm_num)

theorem gS_near (v : Vec3) {r : ℝ} (hr : r = rnd √(rnd (rnd (v.x * v.x) + rnd (v.y * v.y)))) :
    Near (rnd (rnd (r * r) / rnd (geoE2 * geoEps2))) (gS v) 275 := by
  have h0 := rho_near v
  rw [← hr] at h0
  have h1 := ((h0.mul' h0 (by norm_num) (by norm_num) (by norm_num) (by norm_num)).round' (by norm_num)
    (by norm_num)).mono (show _ ≤ (10 : ℝ) by norm_num)
  exact (((h1.div' near_ee (mul_pos geoE2_pos gEps_pos).ne' (by norm_num) (by norm_num) (by norm_num)
    (by norm_num)).2).round' (by norm_num) (by norm_num)).mono (by norm_num)

theorem small_beta {v : Vec3} (h1 : 6000 ≤ v.magnitude) : 0 < gQ v ∧ gb * gb ≤ 1e-4 * gQ v := by
  have hr : v.magnitude ^ 2 = v.x ^ 2 + v.y ^ 2 + v.z ^ 2 := by rw [Vec3.magnitude_sq]; ring
  have h3 := (gQ_bounds hr).1
  have h4 : (6000 : ℝ) ^ 2 ≤ v.magnitude ^ 2 := pow_le_pow_left₀ (by norm_num) h1 2
  have h5 : gb * gb ≤ 41000000 := by norm_num [gb, Earth.RADIUS, Earth.FLATTENING]
  have h0 := mul_pos gb_pos gb_pos
  norm_num at *
  constructor <;> linarith

theorem q_near {v : Vec3} (h1 : 6000 ≤ v.magnitude) {r p s : ℝ}
    (hr : r = rnd √(rnd (rnd (v.x * v.x) + rnd (v.y * v.y)))) (hp : p = rnd (|v.z| / geoEps2))
    (hs : s = rnd (rnd (r * r) / rnd (geoE2 * geoEps2))) :
    Near (rnd (rnd (rnd (p * p) - geoB2) + s)) (gQ v) 280 ∧ 0 < rnd (rnd (rnd (p * p) - geoB2) + s) := by
  obtain ⟨q0, hb⟩ := small_beta h1
  have h2 : Near (rnd (rnd (rnd (p * p) - geoB2) + s)) (gQ v) 280 := by
    apply foot_q (hp ▸ gP_near v) (hs ▸ gS_near v hr) near_b2 (gP_nonneg v) (gS_nonneg v) (mul_pos gb_pos gb_pos) hb rfl
  refine ⟨h2, ?_⟩
  unfold Near at h2
  rw [abs_of_pos q0] at h2
  have hut := u_tiny
  have : 280 * u * gQ v ≤ 1 / 2 * gQ v := by gcongr; linarith
  have := (abs_le.mp h2).1
  linarith

/-- the numbers of the exact computation, all in terms of `ferrari` -/
theorem exact_values {v : Vec3} (h1 : 6000 ≤ v.magnitude) {σ U β S P Q t c w m base x : ℝ}
    (hσ : σ = √(gQ v)) (hU : U = gP v / σ) (hβ : β = gb * gb / gQ v) (hS : S = gS v / gQ v)
    (hP : P = 27 * (gb * gb * U * U / gQ v) * gS v / gQ v) (hQ : Q = (√(P + 1) + √P) ^ ((2 : ℝ) / 3))
    (ht : t = (1 + Q + 1 / Q) / 6) (hc : c = √(U ^ 2 - 1 + 2 * t)) (hw : w = (c - U) / 2)
    (hm : m = √(t ^ 2 + gb * gb * U * U / gQ v)) (hb : base = m - U * w - t / 2 - 1 / 4) (hx : x = w + √base) :
    0 < σ ∧ 0 ≤ U ∧ U ≤ 10001 / 10000 ∧ 0 < β ∧ β ≤ 1 / 10 ^ 4 ∧ 0 ≤ S ∧ S = 1 - U ^ 2 + β ∧
      0 ≤ gb * gb * U * U / gQ v ∧ gb * gb * U * U / gQ v ≤ 101 / 10 ^ 6 ∧ 0 ≤ P ∧ P ≤ 3.6e-3 ∧ 1 / 2 ≤ t ∧
      2 * t ^ 3 - t ^ 2 = β * U ^ 2 * (1 - U ^ 2 + β) ∧ 0 ≤ base ∧ 0 ≤ x ∧ (v.z ≠ 0 → 0 < x) ∧ quartic U β x = 0 := by
  obtain ⟨hq, hbq⟩ := small_beta h1
  have hσ0 : 0 < σ := hσ ▸ Real.sqrt_pos.mpr hq
  have hσ2 : σ ^ 2 = gQ v := by rw [hσ, Real.sq_sqrt hq.le]
  have hu0 : 0 ≤ U := hU ▸ div_nonneg (gP_nonneg v) hσ0.le
  have hβ0 : 0 < β := hβ ▸ div_pos (mul_pos gb_pos gb_pos) hq
  have hβ1 : β ≤ 1 / 10 ^ 4 := by rw [hβ, div_le_iff₀ hq]; norm_num at hbq ⊢; linarith
  have hsq : S = 1 - U ^ 2 + β := by
    rw [hS, hU, hβ, div_pow, hσ2]; have : gS v = gQ v - gP v * gP v + gb * gb := by unfold gQ; ring
    rw [this]; field_simp
  have hsq0 : 0 ≤ S := hS ▸ div_nonneg (gS_nonneg v) hq.le
  have hUU : U ^ 2 ≤ 10001 / 10000 := by norm_num at hβ1; linarith
  have hU1 : U ≤ 10001 / 10000 := by
    by_contra hn; push Not at hn
    have : (10001 / 10000 : ℝ) ^ 2 < U ^ 2 := pow_lt_pow_left₀ hn (by norm_num) (by norm_num)
    norm_num at this; linarith
  have hv : gb * gb * U * U / gQ v = β * U ^ 2 := by rw [hβ]; ring
  have hv0 : 0 ≤ β * U ^ 2 := by positivity
  have hv1 : β * U ^ 2 ≤ 101 / 10 ^ 6 := by
    have : β * U ^ 2 ≤ 1 / 10 ^ 4 * (10001 / 10000) := by gcongr
    norm_num at this ⊢; linarith
  have hP' : P = 27 * (β * U ^ 2 * (1 - U ^ 2 + β)) := by rw [hP, ← hsq, hv, hS]; ring
  have hP0 : 0 ≤ P := by rw [hP', ← hsq]; positivity
  have hP1 : P ≤ 3.6e-3 := by
    have h3 : 1 - U ^ 2 + β ≤ 10001 / 10000 := by have := sq_nonneg U; norm_num at hβ1; linarith
    have h4 : β * U ^ 2 * (1 - U ^ 2 + β) ≤ 101 / 10 ^ 6 * (10001 / 10000) :=
      mul_le_mul hv1 h3 (hsq ▸ hsq0) (by norm_num)
    rw [hP']; norm_num at h4 ⊢; linarith
  have hr := resolvent hP0
  simp only [← hQ] at hr
  rw [← ht] at hr
  obtain ⟨hQ0, ht2, hres⟩ := hr
  have hres' : 2 * t ^ 3 - t ^ 2 = β * U ^ 2 * (1 - U ^ 2 + β) := by rw [hres, hP']; ring
  rw [hv] at hm
  obtain ⟨hb0, hx0, hxp, hxq, -⟩ := ferrari hu0 hβ0 ht2 hres' hc hm hw hb
  rw [← hx] at hx0 hxp hxq
  refine ⟨hσ0, hu0, hU1, hβ0, hβ1, hsq0, hsq, hv ▸ hv0, hv ▸ hv1, hP0, hP1, ht2, hres', hb0, hx0, fun hz => hxp ?_, hxq⟩
  rw [hU]; exact div_pos (div_pos (abs_pos.mpr hz) gEps_pos) hσ0

theorem product_near {g σ σ' x a e : ℝ} (hg : |g| ≤ 1) (hσ : Near σ' σ 282) (hσ0 : 0 < σ) (hx : 0 ≤ x)
    (hxb : σ * x ≤ gb) (ha : |a - x| ≤ e) : |rnd (rnd (g * σ') * a)| ≤ σ * x + 101 / 100 * (σ * e) + 1 / 10 ^ 6 := by
  have hu := u_pos
  have hut := u_tiny
  have e0 : 0 ≤ e := (abs_nonneg _).trans ha
  have h1 := (((Near.refl g).mul' hσ (by norm_num) (by norm_num) (by norm_num) (by norm_num)).round' (by norm_num)
    (by norm_num)).mono (show _ ≤ (285 : ℝ) by norm_num)
  have h2 := abs_le_of_near h1
  have h3 : |g * σ| ≤ σ := by
    rw [abs_mul, abs_of_pos hσ0]
    have := mul_le_mul_of_nonneg_right hg hσ0.le
    linarith
  have h4 : |rnd (g * σ')| ≤ (1 + 285 * u) * σ := h2.trans (by gcongr)
  have h5 : |a| ≤ x + e := by rw [abs_le] at *; constructor <;> linarith
  have h6 : |rnd (g * σ') * a| ≤ (1 + 285 * u) * σ * (x + e) := by
    rw [abs_mul]; gcongr
  have h7 := abs_le_of_near (near_rnd (rnd (g * σ') * a))
  have h8 : |rnd (rnd (g * σ') * a)| ≤ (1 + 1 * u) * ((1 + 285 * u) * σ * (x + e)) := h7.trans (by gcongr)
  have h9 : (1 + 1 * u) * (1 + 285 * u) ≤ 1 + 300 * u := by nlinarith
  have sx : 0 ≤ σ * (x + e) := by positivity
  have h10 := mul_le_mul_of_nonneg_right h9 sx
  have hgb : gb ≤ 6400 := by norm_num [gb, Earth.RADIUS, Earth.FLATTENING]
  have se : 0 ≤ σ * e := by positivity
  have h11 : 300 * u * (σ * x) ≤ 300 * (12 / 10 ^ 17) * 6400 := by
    apply mul_le_mul _ (hxb.trans hgb) (by positivity) (by norm_num)
    linarith
  have h12 : 300 * u * (σ * e) ≤ 1 / 100 * (σ * e) := by gcongr; linarith
  norm_num at *
  linarith

/-- the closed form in double precision beside the exact one.  `σ x` is the height of the exact foot, `e` bounds the
error of the computed `x`. -/
theorem foot_pair {lib : Libm} (hlib : PowAccurate lib) {v : Vec3} (h1 : 6000 ≤ v.magnitude) :
    ∃ σ σ' x a e U β S t c w base : ℝ,
      footHeight lib (rnd √(rnd (rnd (v.x * v.x) + rnd (v.y * v.y)))) v.z = .ok (rnd (rnd (pySign v.z * σ') * a)) ∧
      σ = √(gQ v) ∧ U = gP v / σ ∧ β = gb * gb / gQ v ∧ 0 < σ ∧ Near σ' σ 282 ∧ |a - x| ≤ e ∧ e ≤ 5 / 10 ^ 7 ∧
      (1 / 2 ≤ U → 3 / 10 ^ 4 ≤ √base → e ≤ 4 / 10 ^ 10) ∧
      (∀ g, 0 < U → 0 < g → g ≤ √base → e ≤ 443 * u / U + 813 * u / g + 202 * u) ∧
      0 ≤ U ∧ U ≤ 10001 / 10000 ∧ 0 < β ∧ β ≤ 1 / 10 ^ 4 ∧ 0 ≤ S ∧ S = 1 - U ^ 2 + β ∧ 1 / 2 ≤ t ∧
      2 * t ^ 3 - t ^ 2 = β * U ^ 2 * (1 - U ^ 2 + β) ∧ c = √(U ^ 2 - 1 + 2 * t) ∧ w = (c - U) / 2 ∧ x = w + √base ∧
      0 ≤ x ∧ (v.z ≠ 0 → 0 < x) ∧ quartic U β x = 0 := by
  obtain ⟨r, hr⟩ : ∃ r, r = rnd √(rnd (rnd (v.x * v.x) + rnd (v.y * v.y))) := ⟨_, rfl⟩
  rw [← hr]
  obtain ⟨p', hp'⟩ : ∃ p', p' = rnd (|v.z| / geoEps2) := ⟨_, rfl⟩
  obtain ⟨s', hs'⟩ : ∃ s', s' = rnd (rnd (r * r) / rnd (geoE2 * geoEps2)) := ⟨_, rfl⟩
  obtain ⟨nq, q0'⟩ := q_near h1 hr hp' hs'
  obtain ⟨q', hq'⟩ : ∃ q', q' = rnd (rnd (rnd (p' * p') - geoB2) + s') := ⟨_, rfl⟩
  rw [← hq'] at nq q0'
  obtain ⟨u', hu'⟩ : ∃ u', u' = rnd (p' / rnd √q') := ⟨_, rfl⟩
  obtain ⟨v', hv'⟩ : ∃ v', v' = rnd (rnd (rnd (geoB2 * u') * u') / q') := ⟨_, rfl⟩
  obtain ⟨P', hP'⟩ : ∃ P', P' = rnd (rnd (rnd (27 * v') * s') / q') := ⟨_, rfl⟩
  obtain ⟨Q', hQ'⟩ : ∃ Q', Q' = lib.pow (rnd (rnd √(rnd (P' + 1)) + rnd √P')) (rnd (2 / 3)) := ⟨_, rfl⟩
  obtain ⟨t', ht'⟩ : ∃ t', t' = rnd (rnd (rnd (1 + Q') + rnd (1 / Q')) / 6) := ⟨_, rfl⟩
  obtain ⟨w', hw'⟩ : ∃ w', w' = rnd (rnd (rnd √(rnd (rnd (rnd (u' * u') - 1) + rnd (2 * t'))) - u') / 2) := ⟨_, rfl⟩
  obtain ⟨b', hb'⟩ : ∃ b', b' = rnd (rnd (rnd (rnd √(rnd (rnd (t' * t') + v')) - rnd (u' * w')) - rnd (t' / 2)) - 0.25) :=
    ⟨_, rfl⟩
  obtain ⟨hval, v0', P0', G1', Q1', t1'⟩ := footHeight_value (fun x y => (isDouble_iff _).mpr (hlib.double x y)) hlib.above hp' hs' hq' hu' hv' hP' hQ' ht' hw' hb' q0'
  -- the exact computation
  obtain ⟨σ, hσ⟩ : ∃ σ, σ = √(gQ v) := ⟨_, rfl⟩
  obtain ⟨U, hU⟩ : ∃ U, U = gP v / σ := ⟨_, rfl⟩
  obtain ⟨β, hβ⟩ : ∃ β, β = gb * gb / gQ v := ⟨_, rfl⟩
  obtain ⟨S, hS⟩ : ∃ S, S = gS v / gQ v := ⟨_, rfl⟩
  obtain ⟨P, hP⟩ : ∃ P, P = 27 * (gb * gb * U * U / gQ v) * gS v / gQ v := ⟨_, rfl⟩
  obtain ⟨Q, hQ⟩ : ∃ Q, Q = (√(P + 1) + √P) ^ ((2 : ℝ) / 3) := ⟨_, rfl⟩
  obtain ⟨t, ht⟩ : ∃ t, t = (1 + Q + 1 / Q) / 6 := ⟨_, rfl⟩
  obtain ⟨c, hc⟩ : ∃ c, c = √(U ^ 2 - 1 + 2 * t) := ⟨_, rfl⟩
  obtain ⟨w, hw⟩ : ∃ w, w = (c - U) / 2 := ⟨_, rfl⟩
  obtain ⟨m, hm⟩ : ∃ m, m = √(t ^ 2 + gb * gb * U * U / gQ v) := ⟨_, rfl⟩
  obtain ⟨base, hb⟩ : ∃ base, base = m - U * w - t / 2 - 1 / 4 := ⟨_, rfl⟩
  obtain ⟨x, hx⟩ : ∃ x, x = w + √base := ⟨_, rfl⟩
  obtain ⟨hσ0, hU0, hU1, hβ0, hβ1, hS0, hS1, hv0, hv1, hP0, hP1, ht1, hres, hb0, hx0, hxp, hxq⟩ :=
    exact_values h1 hσ hU hβ hS hP hQ ht hc hw hm hb hx
  obtain ⟨hq, -⟩ := small_beta h1
  -- the two side by side
  obtain ⟨nσ, -, nu⟩ := foot_u (hp' ▸ gP_near v) nq hq q0'.le
  rw [← hu', ← hσ, ← hU] at nu
  rw [← hσ] at nσ
  have nv := foot_v near_b2 nu nq hq
  rw [← hv'] at nv
  have nP := foot_P nv (gS_near v hr) nq hq
  rw [← hs', ← hP', ← hP] at nP
  obtain ⟨nG, G1, G2⟩ := foot_G nP hP0 hP1 P0'
  obtain ⟨nQ, Q1, Q2⟩ := foot_Q hlib nG G2 G1 G1'
  rw [← hQ', ← hQ] at nQ
  rw [← hQ] at Q1 Q2
  obtain ⟨nt, t2⟩ := foot_t nQ Q1 Q2 Q1'
  rw [← ht', ← ht] at nt
  rw [← ht] at t2
  obtain ⟨e, e1, e2, e3, e4⟩ := foot_arg hU0 hU1 nu ht1 t2 nt t1' hv0 hv1 nv v0' hc hw hm hb hb0 hw' hb'
  rw [← hx] at e1
  exact ⟨σ, _, x, _, e, U, β, S, t, c, w, base, hval, hσ, hU, hβ, hσ0, nσ, e1, e2, e3, e4, hU0, hU1, hβ0, hβ1, hS0, hS1,
    ht1, hres, hc, hw, hx, hx0, hxp, hxq⟩

/-- the foot computed in double precision lies below the pole when the exact one does -/
theorem foot_below {lib : Libm} (hlib : PowAccurate lib) {v : Vec3} (h1 : 6000 ≤ v.magnitude)
    (h2 : v.magnitude ≤ 50000) {δ : ℝ} (hδ1 : v.z ≠ 0 → δ ≤ gb * (1 - 15 / 10 ^ 7))
    (huniq : ∀ y, 0 < y → Foot v y → y = δ) :
    ∃ d, footHeight lib (rnd √(rnd (rnd (v.x * v.x) + rnd (v.y * v.y)))) v.z = .ok d ∧ |d| ≤ gb * (1 - 1 / 10 ^ 6) := by
  obtain ⟨σ, σ', x, a, e, U, β, S, t, c, w, base, hval, hσ, hU, hβ, hσ0, nσ, e1, e2, e3, -, hU0, hU1, hβ0, hβ1, hS0, hS1,
    ht1, hres, hc, hw, hx, hx0, hxp, hxq⟩ := foot_pair hlib h1
  obtain ⟨hq, -⟩ := small_beta h1
  refine ⟨_, hval, ?_⟩
  -- a position in the equatorial plane
  by_cases hz : v.z = 0
  · rw [hz, pySign, if_neg (lt_irrefl _), if_neg (lt_irrefl _), zero_mul, rnd_zero, zero_mul, rnd_zero, abs_zero]
    exact mul_nonneg gb_pos.le (by norm_num)
  have hfq := foot_iff_quartic v hq x
  rw [← hσ, ← hU, ← hβ] at hfq
  replace hδ1 := hδ1 hz
  have hδx : σ * x = δ := huniq _ (mul_pos hσ0 (hxp hz)) (hfq.mpr hxq)
  have hsg : |pySign v.z| ≤ 1 := by unfold pySign; split_ifs <;> norm_num
  have hgb : 6350 ≤ gb := by norm_num [gb, Earth.RADIUS, Earth.FLATTENING]
  have hσb : σ ≤ 7450000 := by
    have hr : v.magnitude ^ 2 = v.x ^ 2 + v.y ^ 2 + v.z ^ 2 := by rw [Vec3.magnitude_sq]; ring
    have h3 := (gQ_bounds hr).2
    have h4 : v.magnitude ^ 2 ≤ 50000 ^ 2 := pow_le_pow_left₀ (by linarith) h2 2
    rw [hσ, Real.sqrt_le_left (by norm_num)]
    norm_num at *; linarith
  have hxb : σ * x ≤ gb := by rw [hδx]; linarith
  have hd := product_near hsg nσ hσ0 hx0 hxb e1
  refine hd.trans ?_
  rcases le_total U (1 / 2) with hlow | hhigh
  · have hx2 := foot_low hS1 hxq hU0 hlow hβ0 hβ1 hx0
    have h3 : (σ * x) ^ 2 ≤ (52 / 100 * gb) ^ 2 := by
      have e : σ ^ 2 * β = gb ^ 2 := by
        rw [hβ, hσ, Real.sq_sqrt hq.le]; field_simp
      rw [mul_pow, mul_pow, ← e]
      have := mul_le_mul_of_nonneg_left hx2 (sq_nonneg σ)
      linarith
    have h4 : σ * x ≤ 52 / 100 * gb := by
      have := abs_le_of_sq_le_sq h3 (by positivity)
      exact (abs_le.mp this).2
    have h5 : σ * e ≤ 7450000 * (5 / 10 ^ 7) :=
      mul_le_mul hσb e2 ((abs_nonneg _).trans e1) (by norm_num)
    norm_num at *; linarith
  · have hβl : 7 / 10 ^ 7 ≤ β := by
      rw [hβ, le_div_iff₀ hq]
      have : gQ v ≤ 7450000 ^ 2 := by
        rw [← Real.sq_sqrt hq.le, ← hσ]; exact pow_le_pow_left₀ hσ0.le hσb 2
      have hg2 : 6350 * 6350 ≤ gb * gb := by gcongr
      norm_num at *; linarith
    have hsb := foot_high hS1 hxq hhigh hU1 hS0 hβl hβ1 hx0 ht1 hres hc hw hx
    have h5 : σ * e ≤ 7450000 * (4 / 10 ^ 10) :=
      mul_le_mul hσb (e3 hhigh hsb) ((abs_nonneg _).trans e1) (by norm_num)
    rw [hδx]
    norm_num at *; linarith

theorem cos_sq_lat {lat : ℝ} (h : |lat| ≤ 89.9 * (π / 180)) : 303 / 10 ^ 8 ≤ cos lat ^ 2 := by
  have hpi := Real.pi_gt_d4
  have hpi2 := Real.pi_lt_d4
  have h1 : cos (π / 2 - π / 1800) ≤ cos lat := by
    rw [← cos_abs lat]
    apply cos_le_cos_of_nonneg_of_le_pi (abs_nonneg _) (by linarith)
    norm_num at h ⊢; linarith
  rw [cos_pi_div_two_sub] at h1
  have h2 := sin_gt_sub_cube (x := π / 1800) (by positivity)
  have h3 : (17445 / 10 ^ 7 : ℝ) ≤ π / 1800 - (π / 1800) ^ 3 / 6 := by
    have a1 : (174527 / 10 ^ 8 : ℝ) ≤ π / 1800 := by norm_num at hpi ⊢; linarith
    have a2 : (π / 1800) ^ 3 ≤ (2 / 10 ^ 3) ^ 3 := by
      apply pow_le_pow_left₀ (by positivity); norm_num at hpi2 ⊢; linarith
    norm_num at *; linarith
  have h4 : (17445 / 10 ^ 7 : ℝ) ≤ cos lat := by linarith
  have := pow_le_pow_left₀ (by norm_num) h4 2
  norm_num at *; linarith

theorem foot_of_sin {d n κ : ℝ} (hn : n ≠ 0) (hn2 : n ^ 2 = Earth.RADIUS ^ 2 + Openspace.geoE2 * d ^ 2 / (1 - Openspace.geoE2) ^ 2)
    (hd : d ^ 2 ≤ gb ^ 2) (hs : ((gEps + 1) * (d / n)) ^ 2 ≤ 1 - κ) : d ^ 2 ≤ gb ^ 2 * (1 - κ) := by
  have h1 := one_sub_geoE2_pos
  have hg := geoE2_pos
  have hE : gEps + 1 = 1 / (1 - Openspace.geoE2) := by rw [gEps_eq]; field_simp; ring
  have hbs := gb_sq
  have hA : (Openspace.geoE2 * d ^ 2 / (1 - Openspace.geoE2) ^ 2) * (1 - Openspace.geoE2) ^ 2
      = Openspace.geoE2 * d ^ 2 := by field_simp
  have hB : (1 - Openspace.geoE2) ^ 2 * n ^ 2 = (1 - Openspace.geoE2) * gb ^ 2 + Openspace.geoE2 * d ^ 2 := by
    rw [hn2, mul_add, mul_comm _ (_ / _), hA, sq gb, hbs]; ring
  have hk : 0 ≤ 1 - κ := (sq_nonneg _).trans hs
  rw [hE, mul_pow, div_pow, div_pow, div_mul_div_comm, one_pow, one_mul, div_le_iff₀ (by positivity), hB] at hs
  refine hs.trans ?_
  rw [mul_comm (gb ^ 2)]
  gcongr
  have := mul_le_mul_of_nonneg_left hd hg.le
  linarith

theorem lla_magnitude {lat lon h : ℝ} (h1 : -300 ≤ h) (h2 : h ≤ 43000) {v : Vec3}
    (hv : PositionConvert.llaToItrf ⟨lat, lon, h⟩ = .ok v) : 6000 ≤ v.magnitude ∧ v.magnitude ≤ 50000 := by
  have hE := one_sub_geoE2_pos
  have hN := geoN_ge lat
  have hN0 := geoN_pos lat
  have hN2 := geoN_sq lat
  have hcl := sin_sq_add_cos_sq lon
  have hcp := sin_sq_add_cos_sq lat
  have hg := geoE2_pos
  have hup : geoN lat ≤ 6450 := by
    by_contra hn
    push Not at hn
    have a1 : Openspace.geoE2 ≤ 1 / 100 := by norm_num [Openspace.geoE2, Earth.FLATTENING]
    have a2 : (6450 : ℝ) ^ 2 < geoN lat ^ 2 := pow_lt_pow_left₀ hn (by norm_num) (by norm_num)
    have a3 : Openspace.geoE2 * (geoN lat ^ 2 * sin lat ^ 2) ≤ 1 / 100 * geoN lat ^ 2 := by
      have : geoN lat ^ 2 * sin lat ^ 2 ≤ geoN lat ^ 2 := by
        have := mul_le_mul_of_nonneg_left (sin_sq_le_one lat) (sq_nonneg (geoN lat)); linarith
      have b : 0 ≤ geoN lat ^ 2 * sin lat ^ 2 := by positivity
      exact mul_le_mul a1 this b (by norm_num)
    have a4 : Earth.RADIUS ^ 2 ≤ 40700000 := by norm_num [Earth.RADIUS]
    norm_num at a2
    nlinarith
  have hA : 6000 ≤ geoN lat * (1 - Openspace.geoE2) + h := by
    have : 6335 ≤ Earth.RADIUS * (1 - Openspace.geoE2) := by
      norm_num [Openspace.geoE2, Earth.RADIUS, Earth.FLATTENING]
    nlinarith
  have hB : geoN lat * (1 - Openspace.geoE2) + h ≤ geoN lat + h := by nlinarith
  rw [llaToItrf_ok, Except.ok.injEq] at hv
  have e : v.magnitude ^ 2 = (geoN lat + h) ^ 2 * cos lat ^ 2
      + (geoN lat * (1 - Openspace.geoE2) + h) ^ 2 * sin lat ^ 2 := by
    rw [Vec3.magnitude_sq, ← hv]
    simp only
    linear_combination ((geoN lat + h) * cos lat) ^ 2 * hcl
  have i1 : (6000 : ℝ) ^ 2 ≤ (geoN lat * (1 - Openspace.geoE2) + h) ^ 2 := pow_le_pow_left₀ (by norm_num) hA 2
  have i2 : (6000 : ℝ) ^ 2 ≤ (geoN lat + h) ^ 2 := pow_le_pow_left₀ (by norm_num) (by linarith) 2
  have i3 : (geoN lat * (1 - Openspace.geoE2) + h) ^ 2 ≤ 50000 ^ 2 := pow_le_pow_left₀ (by linarith) (by linarith) 2
  have i4 : (geoN lat + h) ^ 2 ≤ 50000 ^ 2 := pow_le_pow_left₀ (by linarith) (by linarith) 2
  have s0 := sq_nonneg (sin lat)
  have c0 := sq_nonneg (cos lat)
  have m0 := Vec3.magnitude_nonneg v
  constructor
  · by_contra hn; push Not at hn
    have := pow_lt_pow_left₀ hn m0 two_ne_zero
    nlinarith [mul_le_mul_of_nonneg_right i1 s0, mul_le_mul_of_nonneg_right i2 c0]
  · by_contra hn; push Not at hn
    have := pow_lt_pow_left₀ hn (by norm_num) two_ne_zero
    nlinarith [mul_le_mul_of_nonneg_right i3 s0, mul_le_mul_of_nonneg_right i4 c0]

end F64

/-- nothing but the final arcsine can refuse a position at least 6000 km from the centre -/
theorem C106_refusal_partial (lib : F64.Libm) (hdouble : ∀ x y, IsBinary64 (lib.pow x y))
    (habove : ∀ x y, 1 ≤ x → 0 ≤ y → 1 ≤ lib.pow x y) (pos : Vec3) (h : 6000 ≤ pos.magnitude) :
    (∃ l, F64.itrfToLla lib pos = .ok l) ∨ F64.itrfToLla lib pos = .error .valueError := by
  have hq := F64.q_near h rfl rfl rfl
  obtain ⟨hval, -⟩ := F64.footHeight_value (fun x y => (F64.isDouble_iff _).mpr (hdouble x y)) habove rfl rfl rfl rfl rfl
    rfl rfl rfl rfl rfl hq.2
  exact (F64.itrfToLla_end lib pos rfl hval).1

/-- positions between 6000 km and 50000 km from the centre are converted if their latitude is within 89.9 degrees -/
theorem C106_returns_partial (lib : F64.Libm) (hlib : F64.PowAccurate lib) (pos : Vec3) (h1 : 6000 ≤ pos.magnitude)
    (h2 : pos.magnitude ≤ 50000) (l : LLA) (hl : PositionConvert.itrfToLla pos = .ok l)
    (hlat : |l.latitude| ≤ 89.9 * (π / 180)) : ∃ l', F64.itrfToLla lib pos = .ok l' := by
  obtain ⟨hq, -⟩ := F64.small_beta h1
  obtain ⟨δ, hδ0, -, hδ, huniq, hok⟩ := itrfToLla_ok pos hq
  rw [hok] at hl
  have hl' : l = geoFinish pos (pySign pos.z * δ) := by injection hl with hl; exact hl.symm
  have hδ1 : pos.z ≠ 0 → δ ≤ gb * (1 - 15 / 10 ^ 7) := by
    intro hz
    obtain ⟨d, hd⟩ : ∃ d, d = pySign pos.z * δ := ⟨_, rfl⟩
    have hdd : d ^ 2 = δ ^ 2 := by
      rw [hd, mul_pow]
      have : pySign pos.z ^ 2 = 1 := by
        unfold pySign
        rcases lt_or_gt_of_ne hz with h | h
        · rw [if_neg (not_lt.mpr h.le), if_pos h]; norm_num
        · rw [if_pos h]; norm_num
      rw [this, one_mul]
    have hd2 : d ^ 2 ≤ gb ^ 2 := by rw [hdd]; exact pow_le_pow_left₀ hδ0 (foot_le hδ0 hδ) 2
    have hsin := geo_sin_sq hd2
    have hn := geo_n_pos d
    have hn2 := geo_n_sq d
    rw [← hd] at hl'
    have hla : l.latitude = arcsin ((gEps + 1) * (d / (Earth.RADIUS * √(1 + gEps * d * d / (gb * gb))))) := by
      rw [hl', geoFinish]
    obtain ⟨n, hne⟩ : ∃ n, n = Earth.RADIUS * √(1 + gEps * d * d / (gb * gb)) := ⟨_, rfl⟩
    rw [← hne] at hn hn2 hsin hla
    have hs1 := abs_le.mp ((sq_le_one_iff_abs_le_one _).mp hsin)
    have hs : sin l.latitude = (gEps + 1) * (d / n) := by rw [hla, sin_arcsin hs1.1 hs1.2]
    have hc := F64.cos_sq_lat hlat
    have hcs := sin_sq_add_cos_sq l.latitude
    rw [hs] at hcs
    have := F64.foot_of_sin hn.ne' hn2 hd2 (κ := 303 / 10 ^ 8) (by linarith)
    rw [hdd] at this
    have h3 : δ ^ 2 ≤ (gb * (1 - 15 / 10 ^ 7)) ^ 2 := by
      rw [mul_pow]
      have : gb ^ 2 * (1 - 303 / 10 ^ 8) ≤ gb ^ 2 * (1 - 15 / 10 ^ 7) ^ 2 :=
        mul_le_mul_of_nonneg_left (by norm_num) (sq_nonneg _)
      linarith
    exact (abs_le.mp (abs_le_of_sq_le_sq h3 (mul_nonneg gb_pos.le (by norm_num)))).2
  obtain ⟨d, hd, hdb⟩ := F64.foot_below hlib h1 h2 hδ1 huniq
  exact (F64.itrfToLla_end lib pos rfl hd).2 (F64.arc_ok hdb)

/-- every site or satellite at a latitude within 89.9 degrees and a height between -300 km and 43000 km: its position
is converted back -/
theorem C106_sites_partial (lib : F64.Libm) (hlib : F64.PowAccurate lib) (lat lon h : ℝ)
    (hlat : |lat| ≤ 89.9 * (π / 180)) (hlon : 0 ≤ lon) (hlon' : lon < 2 * π) (h1 : -300 ≤ h) (h2 : h ≤ 43000) :
    ∃ pos l', PositionConvert.llaToItrf ⟨lat, lon, h⟩ = .ok pos ∧
      PositionConvert.itrfToLla pos = .ok ⟨lat, lon, h⟩ ∧ F64.itrfToLla lib pos = .ok l' := by
  have hpi := Real.pi_pos
  obtain ⟨pos, hp, hl⟩ := C26_round_trip lat lon h (by norm_num at hlat ⊢; linarith) hlon hlon' (by linarith)
  refine ⟨pos, ?_⟩
  have hm := F64.lla_magnitude h1 h2 hp
  obtain ⟨l', hl'⟩ := C106_returns_partial lib hlib pos hm.1 hm.2 _ hl hlat
  exact ⟨l', hp, hl, hl'⟩

/-- the property is false near the poles: 6358 km up the axis, where exact arithmetic gives the geodetic coordinates,
the argument of the arcsine is rounded above one.  Only `pow(1, y) = 1` is used of the C library. -/
theorem C106_violated (lib : F64.Libm) (hlib : lib.pow 1 (F64.rnd (2 / 3)) = 1) :
    ∃ (pos : Vec3) (l : LLA), IsBinary64 pos.x ∧ IsBinary64 pos.y ∧ IsBinary64 pos.z ∧
      PositionConvert.itrfToLla pos = .ok l ∧ PositionConvert.llaToItrf l = .ok pos ∧
      F64.itrfToLla lib pos = .error .valueError := by
  obtain ⟨l, h1, h2, -⟩ := lla_of_itrf ⟨0, 0, 6358⟩ (gQ_pos_of_mag (by norm_num [semiMajor, Earth.RADIUS]))
  have h0 : IsBinary64 0 := by rw [← F64.isDouble_iff, F64.IsDouble, F64.rnd_zero]
  refine ⟨⟨0, 0, 6358⟩, l, h0, h0, ?_, h1, h2, F64.pole_crash lib hlib⟩
  rw [← F64.isDouble_iff, F64.IsDouble]
  have := F64.rnd_int 6358 (by norm_num)
  simpa using this

/-- a library with correctly rounded powers meets the hypotheses -/
theorem F64.powAccurate_rounded (s c a : ℝ → ℝ) (a2 : ℝ → ℝ → ℝ) :
    F64.PowAccurate ⟨s, c, a2, a, fun x y => F64.rnd (x ^ y)⟩ where
  double _ _ := F64.rnd_binary64 _
  close x y hx := by
    have h := F64.rnd_near (x ^ y)
    have h0 : 0 ≤ x ^ y := Real.rpow_nonneg hx.le y
    rw [abs_of_nonneg h0] at h
    refine h.trans ?_
    gcongr
    norm_num
  above x y hx hy := F64.le_rnd F64.isDouble_one (Real.one_le_rpow hx hy)

/-- a satellite over the equator, in every such library -/
example (lib : F64.Libm) (hlib : F64.PowAccurate lib) : ∃ l, F64.itrfToLla lib ⟨0, 7000, 0⟩ = .ok l := by
  have hm : (Vec3.mk 0 7000 0).magnitude = 7000 := Vec3.magnitude_of_dot (by norm_num) (by norm_num [Vec3.dot])
  obtain ⟨δ, -, -, -, -, hok⟩ := itrfToLla_ok ⟨0, 7000, 0⟩ (F64.small_beta (by rw [hm]; norm_num)).1
  refine C106_returns_partial lib hlib _ (by rw [hm]; norm_num) (by rw [hm]; norm_num) _ hok ?_
  simp [geoFinish, pySign]
  positivity

/-- the observatory at 60 degrees of latitude, 500 m up -/
example (lib : F64.Libm) (hlib : F64.PowAccurate lib) :
    ∃ pos l, PositionConvert.llaToItrf ⟨60 * (π / 180), 1, 0.5⟩ = .ok pos ∧ F64.itrfToLla lib pos = .ok l := by
  obtain ⟨pos, l, h1, -, h2⟩ := C106_sites_partial lib hlib (60 * (π / 180)) 1 0.5
    (by rw [abs_of_pos (by positivity)]; have := Real.pi_pos; norm_num; linarith) (by norm_num)
    (by linarith [Real.pi_gt_three]) (by norm_num) (by norm_num)
  exact ⟨pos, l, h1, h2⟩

end Openspace
