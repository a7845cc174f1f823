import Verif.Props.HohmannFlight

/-!
# C162: no transfer with two burns is cheaper than the planned one

A transfer between two circular orbits with two burns leaves the first orbit at any point with any velocity, follows a two-body
motion, and joins the second orbit at a point of the motion.  The two orbits need not lie in one plane.  Both parts of the cost grow
with the distance of the transverse speed from that of the Hohmann transfer: a faster one meets the second orbit with the radial
speed that the energy asks for, a slower one leaves the first with it.
-/

namespace Openspace

open Real Spec

/-- the parts of a velocity at a distance `R` from the centre, and its distance from the velocity `c` of a circular orbit -/
theorem burn_cost {p v c : Vec3} {R : ℝ} (hR : 0 < R) (hp : p.magnitude = R) (hc : p.dot c = 0) :
    ∃ q w, 0 ≤ w ∧ R * w = (p.cross v).magnitude ∧ v.magnitude ^ 2 = q ^ 2 + w ^ 2 ∧ v.dot c ≤ w * c.magnitude ∧
      (v.minus c).magnitude ^ 2 = q ^ 2 + (w - c.magnitude) ^ 2 + 2 * (w * c.magnitude - v.dot c) := by
  have pp : p.dot p = R ^ 2 := by rw [← Vec3.magnitude_sq_dot, hp]
  have hl : (p.cross v).magnitude ^ 2 = R ^ 2 * v.magnitude ^ 2 - p.dot v ^ 2 := by
    rw [Vec3.magnitude_sq_dot, Vec3.lagrange, pp, ← Vec3.magnitude_sq_dot]
  have hv : v.magnitude ^ 2 = (p.dot v / R) ^ 2 + ((p.cross v).magnitude / R) ^ 2 := by
    rw [div_pow, div_pow, hl]; field_simp; ring
  refine ⟨p.dot v / R, (p.cross v).magnitude / R, div_nonneg (Vec3.magnitude_nonneg _) hR.le, by field_simp, hv, ?_, ?_⟩
  · have e1 : (p.cross v).dot (p.cross c) = R ^ 2 * v.dot c := by
      rw [← pp]
      simp only [Vec3.dot, Vec3.cross] at hc ⊢
      linear_combination (-(p.x * v.x + p.y * v.y + p.z * v.z)) * hc
    have e2 : (p.cross c).magnitude = R * c.magnitude := by rw [momentum_magnitude hc, hp]
    have e3 : (p.cross v).dot (p.cross c) ≤ (p.cross v).magnitude * (p.cross c).magnitude := by
      rw [← Vec3.inner_toE, ← Vec3.norm_toE, ← Vec3.norm_toE]; exact real_inner_le_norm _ _
    rw [e1, e2] at e3
    have e4 : R ^ 2 * v.dot c ≤ R ^ 2 * ((p.cross v).magnitude / R * c.magnitude) := by
      refine e3.trans (le_of_eq ?_); field_simp
    exact le_of_mul_le_mul_left e4 (by positivity)
  · have e1 : (v.minus c).magnitude ^ 2 = v.magnitude ^ 2 - 2 * v.dot c + c.magnitude ^ 2 := by
      rw [Vec3.magnitude_sq_dot, Vec3.magnitude_sq_dot, Vec3.magnitude_sq_dot]
      simp only [Vec3.dot, Vec3.minus]; ring
    rw [e1, hv]; ring

/-- the comparison, for a transfer to a higher orbit: `a` and `b` are the speeds of the Hohmann ellipse -/
theorem transfer_cost {k a c1 c2 q1 q2 w D1 D2 : ℝ} (k0 : 0 < k) (k1 : k ≤ 1) (hw : 0 ≤ w) (ha : c1 ≤ a) (hb : k * a ≤ c2) (h1 : 0 < c1)
    (h12 : c2 ≤ c1) (hq : q1 ^ 2 - q2 ^ 2 = (1 - k ^ 2) * (a ^ 2 - w ^ 2)) (d1 : 0 ≤ D1) (d2 : 0 ≤ D2)
    (hD1 : q1 ^ 2 + (w - c1) ^ 2 ≤ D1 ^ 2) (hD2 : q2 ^ 2 + (k * w - c2) ^ 2 ≤ D2 ^ 2) :
    a - c1 + (c2 - k * a) ≤ D1 + D2 ∧ (D1 + D2 = a - c1 + (c2 - k * a) → w = a ∧ D1 = a - c1 ∧ D2 = c2 - k * a) := by
  have l1 : w - c1 ≤ D1 := abs_le_of_sq_le_sq' (by nlinarith [sq_nonneg q1]) d1 |>.2
  have l2 : c2 - k * w ≤ D2 := by
    have := (abs_le_of_sq_le_sq' (a := k * w - c2) (by nlinarith [sq_nonneg q2]) d2).1
    linarith
  have kk : 0 ≤ 1 - k ^ 2 := by nlinarith
  rcases le_or_gt a w with h | h
  · have m2 : c2 - k * a ≤ D2 := by
      apply abs_le_of_sq_le_sq' _ d2 |>.2
      have e1 : k * c2 ≤ a := by nlinarith
      have : 0 ≤ (w - a) * (w + a - 2 * (k * c2)) := mul_nonneg (by linarith) (by linarith)
      nlinarith [sq_nonneg q1]
    refine ⟨by linarith, fun e => ?_⟩
    have : w = a := by linarith
    exact ⟨this, by linarith, by linarith⟩
  · have m1 : a - c1 ≤ D1 := by
      apply abs_le_of_sq_le_sq' _ d1 |>.2
      have e1 : k ^ 2 * a ≤ c1 := by nlinarith
      have e2 : k ^ 2 * w ≤ c1 := by nlinarith [mul_pos k0 k0]
      have : 0 ≤ (a - w) * (2 * c1 - k ^ 2 * (a + w)) := mul_nonneg (by linarith) (by linarith)
      nlinarith [sq_nonneg q2]
    have m2 : c2 - k * a < c2 - k * w := by
      have := mul_lt_mul_of_pos_left h k0
      linarith
    exact ⟨by linarith, fun e => by linarith⟩

/-- a velocity along another one, from its size and the scalar product -/
theorem along_of_dot {x y : Vec3} {m n : ℝ} (hn : 0 < n) (hy : y.magnitude = n) (hx : x.magnitude ^ 2 = m ^ 2)
    (hxy : x.dot y = m * n) : x = y.scaled (m / n) := by
  have : (x.minus (y.scaled (m / n))).magnitude ^ 2 = 0 := by
    have e1 : (x.minus (y.scaled (m / n))).magnitude ^ 2 = x.magnitude ^ 2 - 2 * (m / n) * x.dot y + (m / n) ^ 2 * y.magnitude ^ 2 := by
      rw [Vec3.magnitude_sq_dot, Vec3.magnitude_sq_dot, Vec3.magnitude_sq_dot]
      simp only [Vec3.dot, Vec3.minus, Vec3.scaled]; ring
    rw [e1, hy, hx, hxy]; field_simp; ring
  have := Vec3.magnitude_eq_zero.mp (pow_eq_zero_iff two_ne_zero |>.mp this)
  have x1 := congrArg Vec3.x this
  have x2 := congrArg Vec3.y this
  have x3 := congrArg Vec3.z this
  simp only [Vec3.minus] at x1 x2 x3
  ext <;> linarith

/-- nothing is left over at the least cost -/
theorem tight {q d m n : ℝ} (h : d ≤ m * n) (e : (m - n) ^ 2 = q ^ 2 + (m - n) ^ 2 + 2 * (m * n - d)) : q ^ 2 = 0 ∧ d = m * n := by
  have := sq_nonneg q
  constructor <;> linarith

/-- the burns of a transfer between states with one energy and one size of angular momentum -/
theorem transfer_states {r1 r2 : ℝ} (h0 : 0 < r1) (h12 : r1 ≤ r2) {h : Hohmann} (hh : Hohmann.new r1 r2 = .ok h)
    {p v c p' v' c' : Vec3} (hp : p.magnitude = r1) (hc : p.dot c = 0) (hcm : c.magnitude ^ 2 = Earth.MU / r1)
    (hp' : p'.magnitude = r2) (hc' : p'.dot c' = 0) (hcm' : c'.magnitude ^ 2 = Earth.MU / r2)
    (hL : (p.cross v).magnitude = (p'.cross v').magnitude)
    (hE : v.magnitude ^ 2 / 2 - Earth.MU / r1 = v'.magnitude ^ 2 / 2 - Earth.MU / r2) :
    h.delta_v_1 + h.delta_v_2 ≤ (v.minus c).magnitude + (v'.minus c').magnitude ∧
      ((v.minus c).magnitude + (v'.minus c').magnitude = h.delta_v_1 + h.delta_v_2 →
        v = c.scaled (h.transfer_velocity_1 / h.initial_velocity) ∧ v' = c'.scaled (h.transfer_velocity_2 / h.final_velocity)) := by
  have hr2 : 0 < r2 := by linarith
  have hmu := mu_pos
  obtain ⟨g1, g2, g3, g4, g5, g6, g7, p1, p2, p3, p4⟩ := C69_laws r1 r2 h hh
  obtain ⟨s1, s2, -⟩ := C70_raising_partial r1 r2 h hh
  have n1 := s1.mp h12
  have n2 := s2.mp h12
  have ec : c.magnitude = h.initial_velocity := by
    have : c.magnitude ^ 2 = h.initial_velocity ^ 2 := by
      rw [hcm]; field_simp at g1; rw [div_eq_iff h0.ne']; linarith
    exact (pow_left_inj₀ c.magnitude_nonneg p1.le two_ne_zero).mp this
  have ec' : c'.magnitude = h.final_velocity := by
    have : c'.magnitude ^ 2 = h.final_velocity ^ 2 := by
      rw [hcm']; field_simp at g2; rw [div_eq_iff hr2.ne']; linarith
    exact (pow_left_inj₀ c'.magnitude_nonneg p4.le two_ne_zero).mp this
  obtain ⟨q, w, w0, a1, a2, a3, a4⟩ := burn_cost (v := v) h0 hp hc
  obtain ⟨q', w', w0', b1, b2, b3, b4⟩ := burn_cost (v := v') hr2 hp' hc'
  rw [ec] at a3 a4
  rw [ec'] at b3 b4
  obtain ⟨k, hk⟩ : ∃ k, k = r1 / r2 := ⟨_, rfl⟩
  have k0 : 0 < k := by rw [hk]; positivity
  have k1 : k ≤ 1 := by rw [hk, div_le_one hr2]; exact h12
  have ew : w' = k * w := by rw [hk]; field_simp; linarith
  have eb : h.transfer_velocity_2 = k * h.transfer_velocity_1 := by rw [hk]; field_simp; linarith
  have hq : q ^ 2 - q' ^ 2 = (1 - k ^ 2) * (h.transfer_velocity_1 ^ 2 - w ^ 2) := by
    rw [ew] at b2; rw [eb] at g5
    linear_combination a2 * (-1) + b2 + 2 * hE - 2 * g4 + 2 * g5
  have h12' : h.final_velocity ≤ h.initial_velocity := by
    have : h.final_velocity ^ 2 ≤ h.initial_velocity ^ 2 := by
      rw [← ec, ← ec', hcm, hcm']; gcongr
    exact le_of_sq_le_sq this p1.le
  obtain ⟨c1, c2⟩ := transfer_cost (c1 := h.initial_velocity) (c2 := h.final_velocity) (a := h.transfer_velocity_1) k0 k1 w0 (by linarith)
    (by rw [← eb]; linarith) p1 h12' hq (v.minus c).magnitude_nonneg (v'.minus c').magnitude_nonneg (by linarith)
    (by rw [← ew]; linarith)
  have total : h.delta_v_1 + h.delta_v_2 = h.transfer_velocity_1 - h.initial_velocity + (h.final_velocity - k * h.transfer_velocity_1) := by
    rw [← eb]; linarith
  rw [total]
  refine ⟨c1, fun e => ?_⟩
  obtain ⟨e1, e2, e3⟩ := c2 e
  rw [e2, e1] at a4
  rw [e3, ew, e1] at b4
  rw [e1] at a3
  rw [ew, e1] at b3
  have z1 := tight a3 a4
  have z2 := tight b3 (by rw [← b4]; ring)
  refine ⟨along_of_dot p1 ec ?_ ?_, along_of_dot p4 ec' ?_ ?_⟩
  · rw [a2, z1.1, e1, zero_add]
  · exact z1.2
  · rw [b2, z2.1, ew, e1, eb, zero_add]
  · rw [z2.2, eb]

/-- the plan of the way back, velocity by velocity -/
theorem hohmann_back {r1 r2 : ℝ} {h k : Hohmann} (hh : Hohmann.new r1 r2 = .ok h) (hk : Hohmann.new r2 r1 = .ok k) :
    k.initial_velocity = h.final_velocity ∧ k.final_velocity = h.initial_velocity ∧
      k.transfer_velocity_1 = h.transfer_velocity_2 ∧ k.transfer_velocity_2 = h.transfer_velocity_1 := by
  obtain ⟨h1, h2⟩ := (C69_defined r1 r2).mp ⟨h, hh⟩
  rw [hohmann_ok h1 h2] at hh
  rw [hohmann_ok h2 h1, add_comm r2 r1] at hk
  cases hh; cases hk
  exact ⟨rfl, rfl, rfl, rfl⟩

/-- **C162.** Take any two-body motion that is at distance `r1` from the centre at one time and at distance `r2` at another, any
velocity `c1` of a circular orbit at the first point and any velocity `c2` of a circular orbit at the second.  The burn from `c1`
to the motion and the burn from the motion to `c2` together are at least as large as the two burns that are planned.  If they are no
larger, then they are the planned ones: the first burn is along `c1` and reaches the first planned transfer velocity, the motion arrives
along `c2` with the second. -/
theorem C162_cheapest {r1 r2 : ℝ} {h : Hohmann} (hh : Hohmann.new r1 r2 = .ok h) (I : Set ℝ) (s : ℝ → State) (t0 t1 : ℝ)
    (hI : I.OrdConnected) (ht0 : t0 ∈ I) (ht1 : t1 ∈ I)
    (hs : TwoBody Earth.MU I (fun t => (s t).position.toE) (fun t => (s t).velocity.toE))
    (hne : ∀ t ∈ I, (s t).position ≠ ⟨0, 0, 0⟩)
    (hp1 : (s t0).position.magnitude = r1) (hp2 : (s t1).position.magnitude = r2) (c1 c2 : Vec3)
    (h1 : (s t0).position.dot c1 = 0) (m1 : c1.magnitude ^ 2 = Earth.MU / r1)
    (h2 : (s t1).position.dot c2 = 0) (m2 : c2.magnitude ^ 2 = Earth.MU / r2) :
    |h.delta_v_1| + |h.delta_v_2| ≤ ((s t0).velocity.minus c1).magnitude + (c2.minus (s t1).velocity).magnitude ∧
    (((s t0).velocity.minus c1).magnitude + (c2.minus (s t1).velocity).magnitude = |h.delta_v_1| + |h.delta_v_2| →
      (s t0).velocity = c1.scaled (h.transfer_velocity_1 / h.initial_velocity) ∧
      (s t1).velocity = c2.scaled (h.transfer_velocity_2 / h.final_velocity)) := by
  obtain ⟨k1, k2⟩ := (C69_defined r1 r2).mp ⟨h, hh⟩
  have hL := congrArg Vec3.magnitude (momentum_const hI hs ht0 ht1)
  have hE := energy_const hI hs hne ht0 ht1
  simp only [hp1, hp2] at hE
  obtain ⟨n1, n2, -⟩ := C70_raising_partial r1 r2 h hh
  have flip : (c2.minus (s t1).velocity).magnitude = ((s t1).velocity.minus c2).magnitude := by
    apply Vec3.magnitude_of_dot (Vec3.magnitude_nonneg _)
    rw [Vec3.magnitude_sq_dot]; simp only [Vec3.dot, Vec3.minus]; ring
  rw [flip]
  rcases le_total r1 r2 with h12 | h12
  · rw [abs_of_nonneg (n1.mp h12), abs_of_nonneg (n2.mp h12)]
    exact transfer_states k1 h12 hh hp1 h1 m1 hp2 h2 m2 hL hE
  · obtain ⟨k, hk⟩ := (C69_defined r2 r1).mpr ⟨k2, k1⟩
    obtain ⟨d1, d2⟩ := C69_reverse r1 r2 h k hh hk
    obtain ⟨b1, b2, b3, b4⟩ := hohmann_back hh hk
    obtain ⟨n1, n2, -⟩ := C70_raising_partial r2 r1 k hk
    have i1 := n1.mp h12
    have i2 := n2.mp h12
    rw [abs_of_nonpos (by linarith : h.delta_v_1 ≤ 0), abs_of_nonpos (by linarith : h.delta_v_2 ≤ 0), ← d1, ← d2]
    obtain ⟨x, y⟩ := transfer_states k2 h12 hk hp2 h2 m2 hp1 h1 m1 hL.symm hE.symm
    rw [b1, b2, b3, b4] at y
    exact ⟨by linarith, fun e => (y (by linarith)).symm⟩

/-- **C162.** The bound is met: from every point of the first orbit there is a motion, defined for all times, that costs exactly what is
planned. -/
theorem C162_attained {r1 r2 : ℝ} {h : Hohmann} (hh : Hohmann.new r1 r2 = .ok h) (p c1 : Vec3) (hp : p.magnitude = r1)
    (h1 : p.dot c1 = 0) (m1 : c1.magnitude ^ 2 = Earth.MU / r1) :
    ∃ (s : ℝ → State) (t1 : ℝ) (c2 : Vec3), 0 < t1 ∧
      TwoBody Earth.MU Set.univ (fun t => (s t).position.toE) (fun t => (s t).velocity.toE) ∧
      (∀ t, (s t).position ≠ ⟨0, 0, 0⟩) ∧ (s 0).position = p ∧ (s t1).position.magnitude = r2 ∧
      (s t1).position.dot c2 = 0 ∧ c2.magnitude ^ 2 = Earth.MU / r2 ∧
      ((s 0).velocity.minus c1).magnitude + (c2.minus (s t1).velocity).magnitude = |h.delta_v_1| + |h.delta_v_2| := by
  obtain ⟨k1, k2⟩ := (C69_defined r1 r2).mp ⟨h, hh⟩
  have hmu := mu_pos
  obtain ⟨g1, g2, g3, g4, g5, g6, g7, p1, p2, p3, p4⟩ := C69_laws r1 r2 h hh
  have ec : c1.magnitude = h.initial_velocity := by
    have : c1.magnitude ^ 2 = h.initial_velocity ^ 2 := by
      rw [m1]; field_simp at g1; rw [div_eq_iff k1.ne']; linarith
    exact Vec3.eq_of_sq_eq c1.magnitude_nonneg p1.le this
  have ef : h.final_velocity ^ 2 = Earth.MU / r2 := by
    field_simp at g2; rw [eq_div_iff k2.ne']; linarith
  obtain ⟨v, hv⟩ : ∃ v, v = c1.scaled (h.transfer_velocity_1 / h.initial_velocity) := ⟨_, rfl⟩
  have mv : v.magnitude = h.transfer_velocity_1 := by
    rw [hv, Vec3.magnitude_scaled_abs, abs_of_pos (by positivity), ec]; field_simp
  have dv : p.dot v = 0 := by rw [hv, Vec3.dot_scaled_right, h1, mul_zero]
  have hc : p.cross v ≠ ⟨0, 0, 0⟩ := by
    rw [← Vec3.magnitude_pos, momentum_magnitude dv, hp, mv]; positivity
  obtain ⟨s, hs, e1, e2⟩ := exists_motion (State.new ⟨0⟩ p v) hc (by
    show v.magnitude ^ 2 / 2 < Earth.MU / p.magnitude
    rw [hp, mv]
    have : -Earth.MU / (r1 + r2) < 0 := by rw [neg_div]; exact neg_neg_of_pos (by positivity)
    linarith) 0
  replace e1 : (s 0).position = p := e1
  replace e2 : (s 0).velocity = v := e2
  obtain ⟨T, hT⟩ : ∃ T, T = π * √(((r1 + r2) / 2) ^ 3 / Earth.MU) := ⟨_, rfl⟩
  have hT0 : 0 < T := by rw [hT]; have := pi_pos; positivity
  obtain ⟨q1, q2⟩ := half_turn Set.ordConnected_univ hs (t0 := 0) trivial hT trivial k1 k2 (by rw [e1, hp]) (by rw [e1, e2, dv])
    (by rw [e2, mv]; exact g4)
  rw [zero_add, e1] at q1
  rw [zero_add, e2] at q2
  have hr : 0 < r2 / r1 := by positivity
  have hr' : 0 < r1 / r2 := by positivity
  have mT : (s T).velocity.magnitude = h.transfer_velocity_2 := by
    rw [q2, Vec3.magnitude_scaled_abs, abs_neg, abs_of_pos hr', mv]; field_simp; linarith
  refine ⟨s, T, (s T).velocity.scaled (h.final_velocity / h.transfer_velocity_2), hT0, hs, fun t ht => ?_, e1, ?_, ?_, ?_, ?_⟩
  · apply hc
    have := momentum_const Set.ordConnected_univ hs (t := t) (t0 := 0) trivial trivial
    rw [e1, e2, ht] at this
    rw [← this]
    simp [Vec3.cross]
  · rw [q1, Vec3.magnitude_scaled_abs, abs_neg, abs_of_pos hr, hp]; field_simp
  · rw [q1, q2]; simp only [Vec3.dot_scaled_left, Vec3.dot_scaled_right, dv]; ring
  · rw [Vec3.magnitude_scaled_abs, abs_of_pos (by positivity), mT, ← ef]; field_simp
  · have f1 : (s 0).velocity.minus c1 = c1.scaled (h.delta_v_1 / h.initial_velocity) := by
      rw [e2, hv, ← g6]; ext <;> simp only [Vec3.minus, Vec3.scaled] <;> field_simp <;> ring
    have f2 : ((s T).velocity.scaled (h.final_velocity / h.transfer_velocity_2)).minus (s T).velocity
        = (s T).velocity.scaled (h.delta_v_2 / h.transfer_velocity_2) := by
      rw [← g7]; ext <;> simp only [Vec3.minus, Vec3.scaled] <;> field_simp <;> ring
    rw [f1, f2, Vec3.magnitude_scaled_abs, Vec3.magnitude_scaled_abs, ec, mT, abs_div, abs_div, abs_of_pos p1, abs_of_pos p3]
    field_simp

/-- a transfer that is not the planned one: the motion to the geosynchronous orbit from a point of a low one, joined half way round in a
plane tilted against the first -/
example : ∃ (h : Hohmann) (s : ℝ → State) (t1 : ℝ) (c2 : Vec3), Hohmann.new 6678 42164 = .ok h ∧
    (s 0).position = ⟨6678, 0, 0⟩ ∧ (s t1).position.magnitude = 42164 ∧ (s t1).position.dot c2 = 0 ∧
    c2.magnitude ^ 2 = Earth.MU / 42164 ∧
    |h.delta_v_1| + |h.delta_v_2| ≤
      ((s 0).velocity.minus ⟨0, 0, √(Earth.MU / 6678)⟩).magnitude + (c2.minus (s t1).velocity).magnitude := by
  obtain ⟨h, hh⟩ := (C69_defined 6678 42164).mpr ⟨by norm_num, by norm_num⟩
  have hmu := mu_pos
  have hp : (⟨6678, 0, 0⟩ : Vec3).magnitude = 6678 := Vec3.magnitude_of_dot (by norm_num) (by simp [Vec3.dot]; norm_num)
  have hc : ∀ a : Vec3, a = ⟨0, √(Earth.MU / 6678), 0⟩ ∨ a = ⟨0, 0, √(Earth.MU / 6678)⟩ → a.magnitude ^ 2 = Earth.MU / 6678 := by
    rintro a (rfl | rfl) <;>
    · rw [Vec3.magnitude_sq_dot]
      simp only [Vec3.dot, mul_zero, zero_add, add_zero]
      exact Real.mul_self_sqrt (by positivity)
  obtain ⟨s, t1, c2, -, hs, hne, e1, e2, e3, e4, -⟩ := C162_attained hh ⟨6678, 0, 0⟩ ⟨0, √(Earth.MU / 6678), 0⟩ hp
    (by simp [Vec3.dot]) (hc _ (.inl rfl))
  exact ⟨h, s, t1, c2, hh, e1, e2, e3, e4, (C162_cheapest hh Set.univ s 0 t1 Set.ordConnected_univ trivial trivial hs
    (fun t _ => hne t) (by rw [e1, hp]) e2 ⟨0, 0, √(Earth.MU / 6678)⟩ c2 (by rw [e1]; simp [Vec3.dot]) (hc _ (.inr rfl)) e3 e4).1⟩

end Openspace
