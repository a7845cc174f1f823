import Verif.Props.DeclaredErrors
import Verif.Props.Symmetry

/-!
# C185: the relative filter and the choice of the inertial axes
-/

namespace Openspace

open Real

/-- what an observer sees: its state, the direction to the target and the errors declared of range and angles -/
structure Spec.Sighting where
  observer : GCRF
  direction : Vec3
  range_error : ℝ
  angular_error : ℝ

/-- the observation a user makes of it -/
noncomputable def Spec.Sighting.observation (g : Spec.Sighting) : SpaceObservation :=
  SpaceObservation.new g.observer g.direction g.range_error g.angular_error

/-- the same in axes turned by `m` -/
noncomputable def Spec.Sighting.turned (m : Mat3) (g : Spec.Sighting) : Spec.Sighting :=
  ⟨Spec.turned m g.observer, m.mulVec g.direction, g.range_error, g.angular_error⟩

namespace Axes

variable {m : Mat3}

/-- the sighting displaced by the declared errors -/
noncomputable def displaced (d : Vec3) (ρ a : ℝ) : Vec3 :=
  SphericalPosition.toCartesian ⟨(SphericalPosition.fromCartesian d).radius + ρ,
    (SphericalPosition.fromCartesian d).right_ascension + a, (SphericalPosition.fromCartesian d).declination + a⟩

theorem displaced_zero {d : Vec3} (hd : d ≠ ⟨0, 0, 0⟩) (ρ : ℝ) :
    displaced d ρ 0 = d.scaled ((d.magnitude + ρ) / d.magnitude) := by
  have hdm : 0 < d.magnitude := Vec3.magnitude_pos.mpr hd
  have hsph := C23_cartesian d
  have hrad : (SphericalPosition.fromCartesian d).radius = d.magnitude := rfl
  simp only [displaced, add_zero]
  simp only [SphericalPosition.toCartesian, hrad] at hsph ⊢
  have hx := congrArg Vec3.x hsph
  have hy := congrArg Vec3.y hsph
  have hz := congrArg Vec3.z hsph
  simp only [Vec3.scaled] at hx hy hz
  ext
  · simp only [Vec3.scaled]
    rw [← mul_div_assoc, eq_div_iff hdm.ne']
    linear_combination (d.magnitude + ρ) * hx
  · simp only [Vec3.scaled]
    rw [← mul_div_assoc, eq_div_iff hdm.ne']
    linear_combination (d.magnitude + ρ) * hy
  · simp only [Vec3.scaled]
    rw [← mul_div_assoc, eq_div_iff hdm.ne']
    linear_combination (d.magnitude + ρ) * hz

theorem displaced_turned (h : m.IsRotation) {d : Vec3} (hd : d ≠ ⟨0, 0, 0⟩) (ρ : ℝ) :
    displaced (m.mulVec d) ρ 0 = m.mulVec (displaced d ρ 0) := by
  have hm := h.orth.magnitude_mulVec d
  have hd' : m.mulVec d ≠ ⟨0, 0, 0⟩ := by
    rw [← Vec3.magnitude_pos, hm]
    exact Vec3.magnitude_pos.mpr hd
  rw [displaced_zero hd, displaced_zero hd', hm, Mat3.mulVec_scaled]

theorem displaced_polar (θ : ℝ) {d : Vec3} (hd : d.x ≠ 0 ∨ d.y ≠ 0) (ρ a : ℝ) :
    displaced ((Spec.polarTurn θ).mulVec d) ρ a = (Spec.polarTurn θ).mulVec (displaced d ρ a) := by
  have hm := (Symmetry.polarTurn_isRotation θ).orth.magnitude_mulVec d
  have hsc := sin_sq_add_cos_sq θ
  obtain ⟨d', hd'⟩ : ∃ d', d' = (Spec.polarTurn θ).mulVec d := ⟨_, rfl⟩
  have ex : d'.x = cos θ * d.x - sin θ * d.y := by
    rw [hd']; simp only [Mat3.mulVec, Spec.polarTurn, Vec3.dot]; ring
  have ey : d'.y = sin θ * d.x + cos θ * d.y := by
    rw [hd']; simp only [Mat3.mulVec, Spec.polarTurn, Vec3.dot]; ring
  have ez : d'.z = d.z := by
    rw [hd']; simp only [Mat3.mulVec, Spec.polarTurn, Vec3.dot]; ring
  rw [← hd'] at hm ⊢
  have hdec : (SphericalPosition.fromCartesian d').declination = (SphericalPosition.fromCartesian d).declination := by
    simp only [SphericalPosition.fromCartesian]
    rw [ez, show d'.x * d'.x + d'.y * d'.y = d.x * d.x + d.y * d.y by
      rw [ex, ey]; linear_combination (d.x * d.x + d.y * d.y) * hsc]
  have hrad : (SphericalPosition.fromCartesian d').radius = (SphericalPosition.fromCartesian d).radius := hm
  have h1 := C23_cartesian d
  have h2 := C23_cartesian d'
  simp only [displaced]
  rw [hdec, hrad]
  simp only [SphericalPosition.toCartesian, hdec, hrad] at h1 h2 ⊢
  generalize (SphericalPosition.fromCartesian d).radius = r at *
  generalize (SphericalPosition.fromCartesian d).declination = δ at *
  generalize (SphericalPosition.fromCartesian d).right_ascension = α at *
  generalize (SphericalPosition.fromCartesian d').right_ascension = α' at *
  have x1 := congrArg Vec3.x h1
  have y1 := congrArg Vec3.y h1
  have x2 := congrArg Vec3.x h2
  have y2 := congrArg Vec3.y h2
  simp only [Vec3.scaled, pyCos, pySin] at x1 y1 x2 y2
  have hne : r * cos δ ≠ 0 := by
    intro h
    rcases hd with hd | hd
    · exact hd (by rw [← x1]; linear_combination cos α * h)
    · exact hd (by rw [← y1]; linear_combination sin α * h)
  have hc : cos α' = cos θ * cos α - sin θ * sin α := by
    refine mul_left_cancel₀ hne ?_
    linear_combination x2 + ex - cos θ * x1 + sin θ * y1
  have hs : sin α' = sin θ * cos α + cos θ * sin α := by
    refine mul_left_cancel₀ hne ?_
    linear_combination y2 + ey - sin θ * x1 - cos θ * y1
  ext
  · simp only [Vec3.scaled, Mat3.mulVec, Spec.polarTurn, Vec3.dot, pyCos, pySin, cos_add, sin_add, hc, hs]
    ring
  · simp only [Vec3.scaled, Mat3.mulVec, Spec.polarTurn, Vec3.dot, pyCos, pySin, cos_add, sin_add, hc, hs]
    ring
  · simp only [Vec3.scaled, Mat3.mulVec, Spec.polarTurn, Vec3.dot, pyCos, pySin]
    ring

theorem convert_turned (h : m.IsRotation) (o : GCRF) (d : Vec3) :
    gcrfToHcw (Spec.turned m o) (GCRF.new o.epoch ((Spec.turned m o).position.plus (m.mulVec d)) (Spec.turned m o).velocity) =
      gcrfToHcw o (GCRF.new o.epoch (o.position.plus d) o.velocity) := by
  have e1 : (Spec.turned m o).position = m.mulVec o.position := rfl
  rw [← C132_hill h o (GCRF.new o.epoch (o.position.plus d) o.velocity), e1, ← Mat3.mulVec_plus]
  rfl

/-- what matters of an observation is where its sighting and its displaced sighting are in the frame of the observer -/
theorem process_turned (h : m.IsRotation) (g : Spec.Sighting)
    (hg : displaced (m.mulVec g.direction) g.range_error g.angular_error =
      m.mulVec (displaced g.direction g.range_error g.angular_error)) :
    RelativeKalman.process (g.turned m).observation = RelativeKalman.process g.observation := by
  have conv : ∀ d : Vec3, gcrfToHcw (Spec.turned m g.observer) (GCRF.new g.observer.epoch
      ((Spec.turned m g.observer).position.plus (m.mulVec d)) (Spec.turned m g.observer).velocity) =
      gcrfToHcw g.observer (GCRF.new g.observer.epoch (g.observer.position.plus d) g.observer.velocity) := by
    exact fun d => convert_turned h g.observer d
  have hz : RelativeKalman.hillMeasurement (g.turned m).observation = RelativeKalman.hillMeasurement g.observation := by
    have := conv g.direction
    simp only [RelativeKalman.hillMeasurement]
    exact congrArg (fun x => x >>= fun h : State => pure h.position) this
  have he : RelativeKalman.hillErrors (g.turned m).observation = RelativeKalman.hillErrors g.observation := by
    have := conv ((displaced g.direction g.range_error g.angular_error).minus g.direction)
    rw [Mat3.mulVec_minus, ← hg] at this
    simp only [RelativeKalman.hillErrors]
    exact congrArg (fun x => x >>= fun h : State => pure h.position) this
  simp only [RelativeKalman.process]
  rw [hz, he]
  rfl

theorem processAll_turned (gs : List Spec.Sighting)
    (h : ∀ g ∈ gs, RelativeKalman.process (g.turned m).observation = RelativeKalman.process g.observation) :
    RelativeKalman.processAll (gs.map fun g => (g.turned m).observation) =
      RelativeKalman.processAll (gs.map Spec.Sighting.observation) := by
  induction gs with
  | nil => rfl
  | cons g gs ih =>
    simp only [List.map_cons, RelativeKalman.processAll]
    rw [h g List.mem_cons_self, ih fun g' hg' => h g' (List.mem_cons_of_mem _ hg')]

end Axes

/-- Whatever has been observed without angular error, the filter does the same, and fails in the same way, if everything
is expressed in other inertial axes. -/
theorem C185_range_partial {m : Mat3} (h : m.IsRotation) (gs : List Spec.Sighting)
    (hgs : ∀ g ∈ gs, g.direction ≠ ⟨0, 0, 0⟩ ∧ g.angular_error = 0) (s : RelativeKalman) :
    RelativeKalman.processAll (gs.map fun g => (g.turned m).observation) s =
      RelativeKalman.processAll (gs.map Spec.Sighting.observation) s := by
  rw [Axes.processAll_turned gs fun g hg => Axes.process_turned h g (by
    obtain ⟨h1, h2⟩ := hgs g hg
    rw [h2]
    exact Axes.displaced_turned h h1 _)]

/-- With angular errors this holds of axes turned about the polar axis, if no target is seen exactly along it. -/
theorem C185_polar_partial (θ : ℝ) (gs : List Spec.Sighting)
    (hgs : ∀ g ∈ gs, g.direction.x ≠ 0 ∨ g.direction.y ≠ 0) (s : RelativeKalman) :
    RelativeKalman.processAll (gs.map fun g => (g.turned (Spec.polarTurn θ)).observation) s =
      RelativeKalman.processAll (gs.map Spec.Sighting.observation) s := by
  rw [Axes.processAll_turned gs fun g hg => Axes.process_turned (Symmetry.polarTurn_isRotation θ) g
    (Axes.displaced_polar θ (hgs g hg) _ _)]

/-- the premises hold of a sighting along the velocity on a geosynchronous orbit, which the filter can process (C184) -/
example (t : Epoch) : (∀ g ∈ [(⟨geoAt t, ⟨0, 10, 0⟩, 1, 0⟩ : Spec.Sighting)], g.direction ≠ ⟨0, 0, 0⟩ ∧ g.angular_error = 0) ∧
    ∀ g ∈ [(⟨geoAt t, ⟨0, 10, 0⟩, 1, 0.01⟩ : Spec.Sighting)], g.direction.x ≠ 0 ∨ g.direction.y ≠ 0 := by
  simp

/-- the axes turned by a right angle about the first -/
noncomputable def Spec.quarterTurn : Mat3 := ⟨⟨1, 0, 0⟩, ⟨0, 0, -1⟩, ⟨0, 1, 0⟩⟩

namespace Axes

theorem quarterTurn_isRotation : Spec.quarterTurn.IsRotation := by
  refine Mat3.Orth.isRotation ⟨?_, ?_, ?_, ?_, ?_, ?_⟩ ?_ <;>
    simp [Spec.quarterTurn, Vec3.dot, Mat3.determinant]

theorem spherical_polar : SphericalPosition.fromCartesian ⟨0, 0, 10⟩ = ⟨10, 0, π / 2⟩ := by
  have hm : (⟨0, 0, 10⟩ : Vec3).magnitude = 10 := Vec3.magnitude_of_dot (by norm_num) (by simp [Vec3.dot]; norm_num)
  have h1 : pyAtan2 10 0 = π / 2 := pyAtan2_eq (r := 10) (by norm_num) (by linarith [pi_pos]) (by linarith [pi_pos])
    (by simp) (by simp)
  have h2 : sqrtNN (0 * 0 + 0 * 0) = 0 := by simp [sqrtNN]
  have h3 : pyAtan2 0 0 = 0 := by
    rw [pyAtan2]
    exact Complex.arg_zero
  simp only [SphericalPosition.fromCartesian, hm, h1, h2, h3, wrapNeg]
  simp

end Axes

/-- In general it does not hold: with an angular error `a` and a range error of `10 tan² a` kilometres, an observer on a
geosynchronous orbit that looks along its velocity at a target ten kilometres away leaves the along-track variance zero,
and with all axes turned by a right angle it does not. -/
theorem C185_violated (epoch : Epoch) (p : Hill) (s : RelativeKalman) (hs : RelativeKalman.new epoch p = .ok s)
    (cs : List RelativeKalman.Call) (t : Epoch) {a : ℝ} (ha : 0 < a) (ha' : a ≤ π / 4) :
    ∃ g : Spec.Sighting, g = ⟨geoAt t, ⟨0, 10, 0⟩, 10 * tan a ^ 2, a⟩ ∧ Spec.quarterTurn.IsRotation ∧
    ∃ s0 s1, RelativeKalman.process g.observation (RelativeKalman.after cs s) = (.ok (), s0) ∧
      RelativeKalman.process (g.turned Spec.quarterTurn).observation (RelativeKalman.after cs s) = (.ok (), s1) ∧
      s0.p00.diagonal.y = 0 ∧ s1.p00.diagonal.y ≠ 0 := by
  obtain ⟨-, s0, -, h0, -, -, hy0⟩ := C184_violated epoch p s hs cs t ha ha'
  have hpi := pi_pos
  have hcos : 0 < cos a := cos_pos_of_mem_Ioo ⟨by linarith, by linarith⟩
  have hsin : 0 < sin a := sin_pos_of_pos_of_lt_pi ha (by linarith)
  have hcs := sin_sq_add_cos_sq a
  have hc1 : cos a < 1 := by nlinarith
  have e2 : (10 + 10 * tan a ^ 2) * cos a ^ 2 = 10 := by
    rw [tan_eq_sin_div_cos]
    field_simp
    linear_combination hcs
  have htan : tan a ≤ 1 := by
    rw [← tan_pi_div_four]
    exact strictMonoOn_tan.monotoneOn ⟨by linarith, by linarith⟩ ⟨by linarith, by linarith⟩ ha'
  have htan0 : 0 < tan a := by rw [tan_eq_sin_div_cos]; positivity
  have hi := (RelativeKalman.new_inv hs).1.after cs
  obtain ⟨ρ, hρ⟩ : ∃ ρ, ρ = 10 * tan a ^ 2 := ⟨_, rfl⟩
  rw [← hρ] at h0 e2 ⊢
  have hρ0 : 0 < ρ := by rw [hρ]; positivity
  have hρ1 : ρ ≤ 10 := by rw [hρ]; nlinarith
  have hcs1 : cos a * sin a ≤ 1 := by nlinarith [sin_le_one a]
  have hdir : Spec.quarterTurn.mulVec ⟨0, 10, 0⟩ = ⟨0, 0, 10⟩ := by
    ext <;> simp [Spec.quarterTurn, Mat3.mulVec, Vec3.dot]
  have conv : ∀ d : Vec3, gcrfToHcw (Spec.turned Spec.quarterTurn (geoAt t)) (GCRF.new t
      ((Spec.turned Spec.quarterTurn (geoAt t)).position.plus (Spec.quarterTurn.mulVec d))
        (Spec.turned Spec.quarterTurn (geoAt t)).velocity) =
      gcrfToHcw (geoAt t) (GCRF.new t ((geoAt t).position.plus d) (geoAt t).velocity) := by
    exact fun d => Axes.convert_turned Axes.quarterTurn_isRotation (geoAt t) d
  obtain ⟨hm, hm1, -⟩ := Declared.convert t (d := ⟨0, 10, 0⟩) (by norm_num)
  obtain ⟨he, he1, hey⟩ := Declared.convert t
    (d := ⟨-((10 + ρ) * (cos a * sin a)), (10 + ρ) * cos a - 10, (10 + ρ) * sin a ^ 2⟩) (by
      show 0 < 42164 + -((10 + ρ) * (cos a * sin a))
      nlinarith)
  rw [← conv] at hm1 he1
  rw [hdir] at hm1
  have hdisp : Axes.displaced ⟨0, 0, 10⟩ ρ a = ⟨-((10 + ρ) * (cos a * sin a)), -((10 + ρ) * sin a ^ 2), (10 + ρ) * cos a⟩ := by
    simp only [Axes.displaced, Axes.spherical_polar, zero_add, SphericalPosition.toCartesian, pyCos, pySin]
    rw [add_comm (π / 2) a, cos_add_pi_div_two, sin_add_pi_div_two]
    ext <;> simp only [Vec3.scaled] <;> ring
  have hq : Spec.quarterTurn.mulVec ⟨-((10 + ρ) * (cos a * sin a)), (10 + ρ) * cos a - 10, (10 + ρ) * sin a ^ 2⟩ =
      (Axes.displaced ⟨0, 0, 10⟩ ρ a).minus ⟨0, 0, 10⟩ := by
    rw [hdisp]
    ext <;> simp [Spec.quarterTurn, Mat3.mulVec, Vec3.dot, Vec3.minus]
  rw [hq] at he1
  obtain ⟨g, hg⟩ : ∃ g : Spec.Sighting, g = ⟨geoAt t, ⟨0, 10, 0⟩, ρ, a⟩ := ⟨_, rfl⟩
  have hob : (g.turned Spec.quarterTurn).observation =
      SpaceObservation.new (Spec.turned Spec.quarterTurn (geoAt t)) ⟨0, 0, 10⟩ ρ a := by
    rw [hg]
    simp only [Spec.Sighting.turned, Spec.Sighting.observation, hdir]
  have hz' : RelativeKalman.hillMeasurement (g.turned Spec.quarterTurn).observation = .ok hm.position := by
    rw [hob]
    simp only [RelativeKalman.hillMeasurement, bind_eq_ok, pure_eq_ok, Except.ok.injEq]
    exact ⟨hm, hm1, rfl⟩
  have he' : RelativeKalman.hillErrors (g.turned Spec.quarterTurn).observation = .ok he.position := by
    rw [hob]
    simp only [RelativeKalman.hillErrors, bind_eq_ok, pure_eq_ok, Except.ok.injEq]
    exact ⟨he, he1, rfl⟩
  obtain ⟨_, _, _, _, _, -, -, -, -, -, -, h1⟩ := RelativeKalman.process_ok hi hz' he'
  obtain ⟨s1, h1⟩ : ∃ s1, RelativeKalman.process (g.turned Spec.quarterTurn).observation (RelativeKalman.after cs s) =
    (.ok (), s1) := ⟨_, h1⟩
  refine ⟨g, hg, Axes.quarterTurn_isRotation, s0, s1, by rw [hg]; exact h0, h1, hy0, fun h => ?_⟩
  obtain ⟨f, hf, -, hyy, -⟩ := C107_certainty_partial epoch p s hs cs _ s1 h1
  rw [he', Except.ok.injEq] at hf
  subst hf
  have h2 := hyy.mp h
  rw [hey] at h2
  have h3 : 0 < (10 + ρ) * cos a - 10 := by
    have : ((10 + ρ) * cos a - 10) * cos a = 10 * (1 - cos a) := by linear_combination e2
    have h4 : 0 < ((10 + ρ) * cos a - 10) * cos a := by rw [this]; linarith
    exact (mul_pos_iff_of_pos_right hcos).mp h4
  have h4 : 0 < 42164 + -((10 + ρ) * (cos a * sin a)) := by nlinarith
  have h5 := arctan_strictMono (div_pos h3 h4)
  rw [arctan_zero] at h5
  linarith

end Openspace
