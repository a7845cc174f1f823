import Verif.Props.KeplerMotion
import Mathlib.Analysis.ODE.ExistUnique

/-!
# The two-body motion through a state: existence and uniqueness
-/

namespace Openspace

open Real Spec

/-! ## there is a motion through every bound state -/

/-- an angle between a unit vector orthogonal to the normal and the node -/
theorem exists_aop (el : ClassicalElements) {P : Vec3} (hP : P.dot P = 1) (hW : P.dot el.dirW = 0) :
    ∃ w, ({el with argument_of_perigee := w} : ClassicalElements).dirP = P := by
  obtain ⟨N, hN⟩ : ∃ N, N = nodeN el.raan := ⟨_, rfl⟩
  obtain ⟨M, hM⟩ : ∃ M, M = nodeM el.raan el.inclination := ⟨_, rfl⟩
  have ho := sin_sq_add_cos_sq el.raan
  have hi := sin_sq_add_cos_sq el.inclination
  have comb : P = (N.scaled (N.dot P)).plus (M.scaled (M.dot P)) := by
    rw [hN, hM]
    simp only [ClassicalElements.dirW, Vec3.dot] at hW
    ext <;> simp only [nodeN, nodeM, Vec3.plus, Vec3.scaled, Vec3.dot]
    · linear_combination (-P.x) * ho - P.x * sin el.raan ^ 2 * hi + P.y * cos el.raan * sin el.raan * hi
        + sin el.inclination * sin el.raan * hW
    · linear_combination (-P.y) * ho - P.y * cos el.raan ^ 2 * hi + P.x * cos el.raan * sin el.raan * hi
        - sin el.inclination * cos el.raan * hW
    · linear_combination (-P.z) * hi + cos el.inclination * hW
  have hsq : (N.dot P) ^ 2 + (M.dot P) ^ 2 = 1 := by
    have := congrArg (fun v => v.dot P) comb
    simp only [Vec3.dot_plus_left, Vec3.dot_scaled_left] at this
    rw [hP] at this
    linarith
  obtain ⟨w, hc, hs⟩ : ∃ w, cos w = N.dot P ∧ sin w = M.dot P := by
    refine ⟨Complex.arg ⟨N.dot P, M.dot P⟩, ?_, ?_⟩
    · have hz : (⟨N.dot P, M.dot P⟩ : ℂ) ≠ 0 := by
        intro h
        have h1 := congrArg Complex.re h
        have h2 := congrArg Complex.im h
        simp only [Complex.zero_re, Complex.zero_im] at h1 h2
        rw [h1, h2] at hsq
        norm_num at hsq
      rw [Complex.cos_arg hz, Complex.norm_eq_sqrt_sq_add_sq, hsq]
      simp
    · rw [Complex.sin_arg, Complex.norm_eq_sqrt_sq_add_sq, hsq]
      simp
  refine ⟨w, ?_⟩
  rw [(node_frame _).1]
  simp only [hc, hs]
  rw [← hN, ← hM]
  exact comb.symm

/-- **existence**: through every bound state that is not radial there is a two-body motion for all times, on a Kepler
ellipse -/
theorem exists_orbit (s0 : State) (hh : s0.position.cross s0.velocity ≠ ⟨0, 0, 0⟩)
    (hb : s0.velocity.magnitude ^ 2 / 2 < Earth.MU / s0.position.magnitude) :
    ∃ (el : ClassicalElements) (E n : ℝ), 0 < el.semimajor_axis ∧ 0 ≤ el.eccentricity ∧ el.eccentricity < 1 ∧
      n = √(Earth.MU / el.semimajor_axis ^ 3) ∧ el.mean_anomaly = E - el.eccentricity * sin E ∧
      s0.position = orbitPos el E ∧ s0.velocity = orbitVel el n E := by
  have hmu := mu_pos
  have hr : s0.position ≠ ⟨0, 0, 0⟩ := fun h => hh (by rw [h]; simp [Vec3.cross])
  obtain ⟨el, E, nu, w, -, -, ha, he, he', -, hrE, hq, -, -, -, -, hwu, hcr, hi, hO, -, -⟩ := fromIjk_bound s0 hr hh hb
  have hW : el.dirW = w := by
    obtain ⟨-, f2, f3, f4⟩ := frame_of_normal hwu
    rw [← hi, ← hO] at f3 f4
    rw [← hi] at f2
    ext
    · exact f3
    · simp only [ClassicalElements.dirW]; rw [f4]; ring
    · exact f2
  obtain ⟨p, hpe⟩ : ∃ p, p = s0.position := ⟨_, rfl⟩
  obtain ⟨v, hve⟩ : ∃ v, v = s0.velocity := ⟨_, rfl⟩
  rw [← hpe] at hrE hq hcr ⊢
  rw [← hve] at hq hcr ⊢
  obtain ⟨a, hae⟩ : ∃ a, a = el.semimajor_axis := ⟨_, rfl⟩
  obtain ⟨e, hee⟩ : ∃ e, e = el.eccentricity := ⟨_, rfl⟩
  rw [← hae] at ha hrE hq hcr
  rw [← hee] at he he' hrE hq hcr
  have h2e : (0 : ℝ) < 1 - e * e := by nlinarith
  obtain ⟨b, hbe⟩ : ∃ b, b = √(1 - e * e) := ⟨_, rfl⟩
  have hss : b * b = 1 - e * e := by rw [hbe]; exact Real.mul_self_sqrt h2e.le
  have hb0 : 0 < b := by rw [hbe]; exact Real.sqrt_pos.mpr h2e
  have hD := one_sub_e_cos_pos he he' E
  have hcs := sin_sq_add_cos_sq E
  have hrr : p.dot p = (a * (1 - e * cos E)) ^ 2 := by rw [← hrE]; exact (Vec3.magnitude_sq_dot _).symm
  obtain ⟨n, hne⟩ : ∃ n, n = √(Earth.MU / a ^ 3) := ⟨_, rfl⟩
  have hn3 : 0 < Earth.MU / a ^ 3 := by positivity
  have hn : 0 < n := by rw [hne]; exact Real.sqrt_pos.mpr hn3
  have hnn : n * n = Earth.MU / a ^ 3 := by rw [hne]; exact Real.mul_self_sqrt hn3.le
  have hmn : Earth.MU = n * n * (a * a * a) := by rw [hnn]; field_simp
  have hsa : √(Earth.MU * a) = n * (a * a) := by
    rw [show Earth.MU * a = (n * (a * a)) * (n * (a * a)) by linear_combination a * hmn]
    exact Real.sqrt_mul_self (by positivity)
  have hsq2 : √(Earth.MU * (a * (1 - e ^ 2))) = n * a * a * b := by
    rw [show Earth.MU * (a * (1 - e ^ 2)) = (n * a * a * b) * (n * a * a * b) by
      rw [hmn]; linear_combination -(n * a * a) ^ 2 * hss]
    exact Real.sqrt_mul_self (by positivity)
  rw [hsq2] at hcr
  rw [hsa] at hq
  have hort : w.dot p = 0 := by
    have := Vec3.dot_cross_left p v
    rw [hcr, Vec3.dot_scaled_right, Vec3.dot_comm] at this
    exact (mul_eq_zero.mp this).resolve_left (by positivity)
  -- the direction of the perigee
  obtain ⟨X, hX⟩ : ∃ X, X = a * (cos E - e) := ⟨_, rfl⟩
  obtain ⟨Y, hY⟩ : ∃ Y, Y = a * b * sin E := ⟨_, rfl⟩
  obtain ⟨q, hqq⟩ : ∃ q, q = p.dot p := ⟨_, rfl⟩
  have hq0 : 0 < q := by rw [hqq, hrr]; positivity
  have hXY : X ^ 2 + Y ^ 2 = q := by
    rw [hqq, hrr, hX, hY]
    linear_combination a ^ 2 * sin E ^ 2 * hss + a ^ 2 * (1 - e ^ 2) * hcs
  obtain ⟨P, hPe⟩ : ∃ P, P = ((p.scaled X).minus ((w.cross p).scaled Y)).scaled (1 / q) := ⟨_, rfl⟩
  have hwp : (w.cross p).dot (w.cross p) = q := by rw [Vec3.lagrange, hwu, hort, hqq]; ring
  have hpwp : p.dot (w.cross p) = 0 := by simp only [Vec3.dot, Vec3.cross]; ring
  have hwwp : w.dot (w.cross p) = 0 := by simp only [Vec3.dot, Vec3.cross]; ring
  have hPP : P.dot P = 1 := by
    rw [hPe]
    have : (((p.scaled X).minus ((w.cross p).scaled Y)).scaled (1 / q)).dot
        (((p.scaled X).minus ((w.cross p).scaled Y)).scaled (1 / q))
        = (X ^ 2 * p.dot p - 2 * X * Y * p.dot (w.cross p) + Y ^ 2 * (w.cross p).dot (w.cross p)) * (1 / q) ^ 2 := by
      simp only [Vec3.dot, Vec3.scaled, Vec3.minus]; ring
    rw [this, hwp, hpwp, ← hqq, mul_zero, sub_zero, ← add_mul, hXY]
    field_simp
  have hPW : P.dot el.dirW = 0 := by
    rw [hW, hPe]
    have : (((p.scaled X).minus ((w.cross p).scaled Y)).scaled (1 / q)).dot w
        = (X * w.dot p - Y * w.dot (w.cross p)) * (1 / q) := by
      simp only [Vec3.dot, Vec3.scaled, Vec3.minus]; ring
    rw [this, hort, hwwp]; ring
  obtain ⟨om, hom⟩ := exists_aop el hPP hPW
  obtain ⟨el', hel⟩ : ∃ el' : ClassicalElements, el' = {el with argument_of_perigee := om, mean_anomaly := E - e * sin E} :=
    ⟨_, rfl⟩
  have ea : el'.semimajor_axis = a := by rw [hel]; exact hae.symm
  have ee : el'.eccentricity = e := by rw [hel]; exact hee.symm
  have eP : el'.dirP = P := by rw [hel]; exact hom
  have eW : el'.dirW = w := by rw [hel]; exact hW
  have hPQ : w.cross P = el'.semilatusRectumVector := by rw [← eW, ← eP]; exact el'.dirW_cross_dirP
  have hQQ : w.cross el'.semilatusRectumVector = P.scaled (-1) := by rw [← eW, ← eP]; exact el'.dirW_cross_dirQ
  have hwwp2 : w.cross (w.cross p) = p.scaled (-1) := by
    have hwu' := hwu
    simp only [Vec3.dot] at hwu' hort
    ext <;> simp only [Vec3.cross, Vec3.scaled]
    · linear_combination w.x * hort - p.x * hwu'
    · linear_combination w.y * hort - p.y * hwu'
    · linear_combination w.z * hort - p.z * hwu'
  have hQe : el'.semilatusRectumVector = ((p.scaled Y).plus ((w.cross p).scaled X)).scaled (1 / q) := by
    rw [← hPQ, hPe]
    have x := congrArg Vec3.x hwwp2
    have y := congrArg Vec3.y hwwp2
    have z := congrArg Vec3.z hwwp2
    simp only [Vec3.cross, Vec3.scaled] at x y z
    ext <;> simp only [Vec3.cross, Vec3.scaled, Vec3.minus, Vec3.plus]
    · linear_combination (-Y / q) * x
    · linear_combination (-Y / q) * y
    · linear_combination (-Y / q) * z
  have hpos : p = (P.scaled X).plus (el'.semilatusRectumVector.scaled Y) := by
    have k : 1 / q * q = 1 := by field_simp
    rw [hQe, hPe]
    ext <;> simp only [Vec3.scaled, Vec3.minus, Vec3.plus]
    · linear_combination -p.x * k - p.x * (1 / q) * hXY
    · linear_combination -p.y * k - p.y * (1 / q) * hXY
    · linear_combination -p.z * k - p.z * (1 / q) * hXY
  have hv := velocity_split hcr (by rw [← hqq]; exact hq0.ne')
  have ho := orbit_velocity hPQ hQQ (κ := n * a) (E := E) ha hss rfl hD
  rw [← hX, ← hY, ← hpos] at ho
  refine ⟨el', E, n, ea ▸ ha, ee ▸ he, ee ▸ he', by rw [ea]; exact hne, by rw [ee, hel], ?_, ?_⟩
  · rw [orbitPos, ea, ee, eP, ← hbe, ← hX, ← hY]; exact hpos
  · rw [orbitVel, ea, ee, eP, ← hbe, ← ho, hv, hrr, hq]
    congr 2
    ring

/-- through every bound state that is not radial there is a two-body motion, for all times -/
theorem exists_motion (s0 : State) (hh : s0.position.cross s0.velocity ≠ ⟨0, 0, 0⟩)
    (hb : s0.velocity.magnitude ^ 2 / 2 < Earth.MU / s0.position.magnitude) (t0 : ℝ) :
    ∃ s : ℝ → State, TwoBody Earth.MU Set.univ (fun t => (s t).position.toE) (fun t => (s t).velocity.toE) ∧
      (s t0).position = s0.position ∧ (s t0).velocity = s0.velocity := by
  obtain ⟨el, E0, n, ha, he, he', hne, hM, hp, hv⟩ := exists_orbit s0 hh hb
  obtain ⟨E, hE, hT⟩ := kepler_motion {el with mean_anomaly := el.mean_anomaly - n * t0} ha he he' hne
  refine ⟨fun t => State.new s0.epoch (orbitPos el (E t)) (orbitVel el n (E t)), hT, ?_⟩
  have : E t0 = E0 := by
    apply kepler_injective he he'
    have := hE t0
    unfold kepler
    simp only at this
    rw [this, ← hM]; ring
  constructor
  · show orbitPos el (E t0) = _
    rw [this, hp]
  · show orbitVel el n (E t0) = _
    rw [this, hv]

/-! ## and only one -/

/-- the attraction is Lipschitz away from the centre -/
theorem attraction_lipschitz {V : Type} [NormedAddCommGroup V] [NormedSpace ℝ V] {x y : V} {d : ℝ} (hd : 0 < d)
    (hx : d ≤ ‖x‖) (hy : d ≤ ‖y‖) : ‖(1 / ‖x‖ ^ 3) • x - (1 / ‖y‖ ^ 3) • y‖ ≤ 4 / d ^ 3 * ‖x - y‖ := by
  have hx0 : 0 < ‖x‖ := by linarith
  have hy0 : 0 < ‖y‖ := by linarith
  have e1 : (1 / ‖x‖ ^ 3) • x - (1 / ‖y‖ ^ 3) • y = (1 / ‖x‖ ^ 3) • (x - y) + (1 / ‖x‖ ^ 3 - 1 / ‖y‖ ^ 3) • y := by
    rw [smul_sub, sub_smul]; abel
  rw [e1]
  refine (norm_add_le _ _).trans ?_
  rw [norm_smul, norm_smul, Real.norm_eq_abs, Real.norm_eq_abs, abs_of_pos (by positivity)]
  have h1 : 1 / ‖x‖ ^ 3 ≤ 1 / d ^ 3 := by gcongr
  have h2 : |1 / ‖x‖ ^ 3 - 1 / ‖y‖ ^ 3| * ‖y‖ ≤ 3 / d ^ 3 * ‖x - y‖ := by
    have e2 : |1 / ‖x‖ ^ 3 - 1 / ‖y‖ ^ 3| * ‖y‖
        = |‖y‖ - ‖x‖| * (1 / ‖x‖ ^ 3 + 1 / (‖x‖ ^ 2 * ‖y‖) + 1 / (‖x‖ * ‖y‖ ^ 2)) := by
      rw [show 1 / ‖x‖ ^ 3 - 1 / ‖y‖ ^ 3 = (‖y‖ - ‖x‖) * ((‖y‖ ^ 2 + ‖x‖ * ‖y‖ + ‖x‖ ^ 2) / (‖x‖ ^ 3 * ‖y‖ ^ 3)) by
        field_simp; ring, abs_mul, abs_of_pos (by positivity : 0 < (‖y‖ ^ 2 + ‖x‖ * ‖y‖ + ‖x‖ ^ 2) / (‖x‖ ^ 3 * ‖y‖ ^ 3))]
      field_simp
      try ring
    rw [e2, mul_comm (3 / d ^ 3)]
    have h3 : |‖y‖ - ‖x‖| ≤ ‖x - y‖ := by rw [abs_sub_comm]; exact abs_norm_sub_norm_le x y
    have h4 : 1 / (‖x‖ ^ 2 * ‖y‖) ≤ 1 / (d ^ 2 * d) := by gcongr
    have h5 : 1 / (‖x‖ * ‖y‖ ^ 2) ≤ 1 / (d * d ^ 2) := by gcongr
    have h6 : 1 / ‖x‖ ^ 3 + 1 / (‖x‖ ^ 2 * ‖y‖) + 1 / (‖x‖ * ‖y‖ ^ 2) ≤ 3 / d ^ 3 := by
      have e3 : 1 / (d ^ 2 * d) = 1 / d ^ 3 := by ring
      have e4 : 1 / (d * d ^ 2) = 1 / d ^ 3 := by ring
      have e5 : 3 / d ^ 3 = 3 * (1 / d ^ 3) := by ring
      rw [e3] at h4
      rw [e4] at h5
      linarith
    exact mul_le_mul h3 h6 (by positivity) (norm_nonneg _)
  have h3 : 1 / ‖x‖ ^ 3 * ‖x - y‖ ≤ 1 / d ^ 3 * ‖x - y‖ := by gcongr
  have e3 : 4 / d ^ 3 * ‖x - y‖ = 1 / d ^ 3 * ‖x - y‖ + 3 / d ^ 3 * ‖x - y‖ := by ring
  linarith

/-- two motions that never meet the centre and agree at one time agree at all times -/
theorem twoBody_unique {mu : ℝ} (hmu : 0 < mu) {I : Set ℝ} (hI : I.OrdConnected) {R V R' V' : ℝ → Space}
    (h : TwoBody mu I R V) (h' : TwoBody mu I R' V') (hR : ∀ t ∈ I, R t ≠ 0) (hR' : ∀ t ∈ I, R' t ≠ 0) {t0 : ℝ}
    (ht0 : t0 ∈ I) (e1 : R t0 = R' t0) (e2 : V t0 = V' t0) {t : ℝ} (ht : t ∈ I) : R t = R' t ∧ V t = V' t := by
  have hsub : Set.uIcc t0 t ⊆ I := hI.uIcc_subset ht0 ht
  have hcR : ContinuousOn (fun t => ‖R t‖) (Set.uIcc t0 t) :=
    fun s hs => (h.velocity s (hsub hs)).continuousAt.norm.continuousWithinAt
  have hcR' : ContinuousOn (fun t => ‖R' t‖) (Set.uIcc t0 t) :=
    fun s hs => (h'.velocity s (hsub hs)).continuousAt.norm.continuousWithinAt
  obtain ⟨s1, hs1, hm1⟩ := isCompact_uIcc.exists_isMinOn Set.nonempty_uIcc hcR
  obtain ⟨s2, hs2, hm2⟩ := isCompact_uIcc.exists_isMinOn Set.nonempty_uIcc hcR'
  obtain ⟨d, hde⟩ : ∃ d, d = min ‖R s1‖ ‖R' s2‖ := ⟨_, rfl⟩
  have hd : 0 < d := by
    rw [hde]
    exact lt_min (norm_pos_iff.mpr (hR _ (hsub hs1))) (norm_pos_iff.mpr (hR' _ (hsub hs2)))
  have b1 : ∀ s ∈ Set.uIcc t0 t, d ≤ ‖R s‖ := fun s hs => by
    rw [hde]; exact (min_le_left _ _).trans (isMinOn_iff.mp hm1 s hs)
  have b2 : ∀ s ∈ Set.uIcc t0 t, d ≤ ‖R' s‖ := fun s hs => by
    rw [hde]; exact (min_le_right _ _).trans (isMinOn_iff.mp hm2 s hs)
  let F : ℝ → Space × Space → Space × Space := fun _ z => (z.2, -(mu / ‖z.1‖ ^ 3) • z.1)
  let S : ℝ → Set (Space × Space) := fun _ => {z | d ≤ ‖z.1‖}
  have hK0 : 0 ≤ max 1 (mu * (4 / d ^ 3)) := le_max_of_le_left zero_le_one
  have hL : ∀ s, LipschitzOnWith ⟨max 1 (mu * (4 / d ^ 3)), hK0⟩ (F s) (S s) := fun s => by
    apply LipschitzOnWith.of_dist_le_mul
    intro x hx y hy
    show dist _ _ ≤ max 1 (mu * (4 / d ^ 3)) * dist x y
    rw [Prod.dist_eq, Prod.dist_eq]
    apply max_le
    · calc dist x.2 y.2 ≤ 1 * max (dist x.1 y.1) (dist x.2 y.2) := by rw [one_mul]; exact le_max_right _ _
        _ ≤ _ := by gcongr; exact le_max_left _ _
    · have := attraction_lipschitz hd hx hy
      show dist (-(mu / ‖x.1‖ ^ 3) • x.1) (-(mu / ‖y.1‖ ^ 3) • y.1) ≤ _
      rw [dist_eq_norm, show -(mu / ‖x.1‖ ^ 3) • x.1 - -(mu / ‖y.1‖ ^ 3) • y.1
        = (-mu) • ((1 / ‖x.1‖ ^ 3) • x.1 - (1 / ‖y.1‖ ^ 3) • y.1) by
          rw [smul_sub, smul_smul, smul_smul]; congr 2 <;> ring, norm_smul, Real.norm_eq_abs, abs_neg, abs_of_pos hmu]
      calc mu * ‖(1 / ‖x.1‖ ^ 3) • x.1 - (1 / ‖y.1‖ ^ 3) • y.1‖ ≤ mu * (4 / d ^ 3 * ‖x.1 - y.1‖) := by gcongr
        _ = mu * (4 / d ^ 3) * dist x.1 y.1 := by rw [dist_eq_norm]; ring
        _ ≤ _ := by gcongr; exacts [le_max_right _ _, le_max_left _ _]
  have hf : ∀ s ∈ I, HasDerivAt (fun t => (R t, V t)) (F s (R s, V s)) s :=
    fun s hs => (h.velocity s hs).prodMk (h.attraction s hs)
  have hg : ∀ s ∈ I, HasDerivAt (fun t => (R' t, V' t)) (F s (R' s, V' s)) s :=
    fun s hs => (h'.velocity s hs).prodMk (h'.attraction s hs)
  have he : (fun t => (R t, V t)) t0 = (fun t => (R' t, V' t)) t0 := by simp only [e1, e2]
  have key : (R t, V t) = (R' t, V' t) := by
    rcases le_total t0 t with hle | hle
    · rw [Set.uIcc_of_le hle] at hsub b1 b2
      exact ODE_solution_unique_of_mem_Icc_right (v := F) (s := S) (fun s _ => hL s)
        (fun s hs => (hf s (hsub hs)).continuousAt.continuousWithinAt)
        (fun s hs => (hf s (hsub (Set.Ico_subset_Icc_self hs))).hasDerivWithinAt)
        (fun s hs => b1 s (Set.Ico_subset_Icc_self hs))
        (fun s hs => (hg s (hsub hs)).continuousAt.continuousWithinAt)
        (fun s hs => (hg s (hsub (Set.Ico_subset_Icc_self hs))).hasDerivWithinAt)
        (fun s hs => b2 s (Set.Ico_subset_Icc_self hs)) he ⟨hle, le_rfl⟩
    · rw [Set.uIcc_of_ge hle] at hsub b1 b2
      exact ODE_solution_unique_of_mem_Icc_left (v := F) (s := S) (fun s _ => hL s)
        (fun s hs => (hf s (hsub hs)).continuousAt.continuousWithinAt)
        (fun s hs => (hf s (hsub (Set.Ioc_subset_Icc_self hs))).hasDerivWithinAt)
        (fun s hs => b1 s (Set.Ioc_subset_Icc_self hs))
        (fun s hs => (hg s (hsub hs)).continuousAt.continuousWithinAt)
        (fun s hs => (hg s (hsub (Set.Ioc_subset_Icc_self hs))).hasDerivWithinAt)
        (fun s hs => b2 s (Set.Ioc_subset_Icc_self hs)) he ⟨le_rfl, hle⟩
  exact Prod.mk.inj key

theorem toE_injective {a b : Vec3} (h : a.toE = b.toE) : a = b := by
  have h1 : a.toFun = b.toFun := congrArg (fun z : Space => z.ofLp) h
  ext
  · exact congrFun h1 0
  · exact congrFun h1 1
  · exact congrFun h1 2

theorem toE_ne_zero {a : Vec3} (h : a ≠ ⟨0, 0, 0⟩) : a.toE ≠ 0 := by
  rw [← norm_pos_iff, Vec3.norm_toE]
  exact Vec3.magnitude_pos.mpr h

/-- every motion that is bound and not radial runs on a Kepler ellipse, at the times of Kepler's equation -/
theorem motion_on_orbit {I : Set ℝ} (hI : I.OrdConnected) {s : ℝ → State}
    (h : TwoBody Earth.MU I (fun t => (s t).position.toE) (fun t => (s t).velocity.toE)) {t0 : ℝ} (ht0 : t0 ∈ I)
    (hh : (s t0).position.cross (s t0).velocity ≠ ⟨0, 0, 0⟩)
    (hb : (s t0).velocity.magnitude ^ 2 / 2 < Earth.MU / (s t0).position.magnitude) :
    ∃ (el : ClassicalElements) (E : ℝ → ℝ) (n : ℝ), 0 < el.semimajor_axis ∧ 0 ≤ el.eccentricity ∧
      el.eccentricity < 1 ∧ n = √(Earth.MU / el.semimajor_axis ^ 3) ∧
      (∀ t, E t - el.eccentricity * sin (E t) = E t0 - el.eccentricity * sin (E t0) + n * (t - t0)) ∧
      ∀ t ∈ I, (s t).position = orbitPos el (E t) ∧ (s t).velocity = orbitVel el n (E t) := by
  obtain ⟨el, E0, n, ha, he, he', hne, hM, hp, hv⟩ := exists_orbit (s t0) hh hb
  obtain ⟨E, hE, hT⟩ := kepler_motion {el with mean_anomaly := el.mean_anomaly - n * t0} ha he he' hne
  have h0 : E t0 = E0 := by
    apply kepler_injective he he'
    have := hE t0
    unfold kepler
    simp only at this
    rw [this, ← hM]; ring
  refine ⟨el, E, n, ha, he, he', hne, fun t => ?_, fun t ht => ?_⟩
  · have h1 := hE t
    have h2 := hE t0
    simp only at h1 h2
    rw [h1, h2]; ring
  have hT' : TwoBody Earth.MU I (fun t => (orbitPos el (E t)).toE) (fun t => (orbitVel el n (E t)).toE) :=
    ⟨fun t _ => hT.velocity t trivial, fun t _ => hT.attraction t trivial⟩
  have n1 : ∀ t ∈ I, (s t).position ≠ ⟨0, 0, 0⟩ := fun t ht hz => by
    have := momentum_const hI (p := fun t => (s t).position) (v := fun t => (s t).velocity) h ht ht0
    rw [hz] at this
    exact hh (by rw [← this]; simp [Vec3.cross])
  have n2 : ∀ t ∈ I, orbitPos el (E t) ≠ ⟨0, 0, 0⟩ := fun t ht hz => by
    have := momentum_const hI (p := fun t => orbitPos el (E t)) (v := fun t => orbitVel el n (E t)) hT' ht ht0
    rw [hz, h0, ← hp, ← hv] at this
    exact hh (by rw [← this]; simp [Vec3.cross])
  obtain ⟨k1, k2⟩ := twoBody_unique mu_pos hI h hT' (fun t ht => toE_ne_zero (n1 t ht)) (fun t ht => toE_ne_zero (n2 t ht))
    ht0 (by simp only [h0, hp]) (by simp only [h0, hv]) ht
  exact ⟨toE_injective k1, toE_injective k2⟩

end Openspace
