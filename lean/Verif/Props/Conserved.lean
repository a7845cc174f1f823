import Verif.Lemmas.EnergyDrift
import Verif.Props.Existence

/-!
# C172: how much the perturbations change the energy, the angular momentum and the elements
-/

namespace Openspace

open Real Filter Topology

/-- specific mechanical energy with respect to the Earth's centre -/
noncomputable def Spec.energy (r v : Vec3) : ℝ := v.magnitude ^ 2 / 2 - Earth.MU / r.magnitude

namespace Conserved

/-- along a motion without thrust the acceleration is central attraction up to the bound of C169 -/
theorem rate (p : RK4) (hoff : p.m_dot = 0) {y : ℝ → Spec.Phase} {a b T lo hi : ℝ} (hy : p.Flight y a b) (hTb : T < b)
    (hlo : 5000 ≤ lo) (hhi : hi ≤ 300000)
    (hr : ∀ s ∈ Set.Icc 0 T, ∀ r v, y s = Spec.phase r v → lo ≤ r.magnitude ∧ r.magnitude ≤ hi ∧
      ∀ z, PositionConvert.gcrfToItrf r (p.state.epoch.plusDays (s / 86400)) ≠ .ok ⟨0, 0, z⟩) {s : ℝ}
    (hs : s ∈ Set.Icc 0 T) {r v : Vec3} (hrv : y s = Spec.phase r v) :
    ∃ acc : Vec3, HasDerivWithinAt y (Spec.phase v acc) (Set.Ici s) s ∧
      (acc.minus (r.scaled (-Earth.MU / r.magnitude ^ 3))).magnitude ≤ Spec.perturbation lo hi := by
  obtain ⟨g1, g2, g3⟩ := hr s hs r v hrv
  obtain ⟨d, hd, hder⟩ := Perturbed.right p hoff hy (by linarith [hy.before, hs.1]) (by linarith [hs.2]) hrv (by linarith) g3
  obtain ⟨acc, hacc, hbound⟩ := C169_perturbation (GCRF.new (p.state.epoch.plusDays (s / 86400)) r v)
    (show 5000 ≤ r.magnitude by linarith) (show r.magnitude ≤ 300000 by linarith) g3
  cases hd.symm.trans hacc
  have hbound' : ((acc.minus ⟨0, 0, 0⟩).minus (r.scaled (-Earth.MU / r.magnitude ^ 3))).magnitude ≤
      Spec.perturbation r.magnitude r.magnitude + 4.56e-9 * |(0 : ℝ)| := hbound
  rw [abs_zero, mul_zero, add_zero, show acc.minus ⟨0, 0, 0⟩ = acc by ext <;> simp [Vec3.minus]] at hbound'
  exact ⟨acc, hder, hbound'.trans (perturbation_mono (by linarith) g1 g2 hhi)⟩

/-- the coordinates of a rate of change in phase space -/
theorem coords {y : ℝ → Spec.Phase} {v c : Vec3} {S : Set ℝ} {s : ℝ} (h : HasDerivWithinAt y (Spec.phase v c) S s) :
    (HasDerivWithinAt (fun s => (ofFun (y s).1).x) v.x S s ∧ HasDerivWithinAt (fun s => (ofFun (y s).1).y) v.y S s ∧
      HasDerivWithinAt (fun s => (ofFun (y s).1).z) v.z S s) ∧
    (HasDerivWithinAt (fun s => (ofFun (y s).2).x) c.x S s ∧ HasDerivWithinAt (fun s => (ofFun (y s).2).y) c.y S s ∧
      HasDerivWithinAt (fun s => (ofFun (y s).2).z) c.z S s) := by
  have h1 : HasDerivWithinAt (fun s => (y s).1) v.toFun S s := h.fst
  have h2 : HasDerivWithinAt (fun s => (y s).2) c.toFun S s := h.snd
  have g1 := hasDerivWithinAt_pi.mp h1
  have g2 := hasDerivWithinAt_pi.mp h2
  exact ⟨⟨g1 0, g1 1, g1 2⟩, g2 0, g2 1, g2 2⟩

/-- power -/
theorem energy_deriv {y : ℝ → Spec.Phase} {r v c : Vec3} {S : Set ℝ} {s : ℝ} (h : HasDerivWithinAt y (Spec.phase v c) S s)
    (hrv : y s = Spec.phase r v) (hr : 0 < r.magnitude) :
    HasDerivWithinAt (fun s => Spec.energy (ofFun (y s).1) (ofFun (y s).2))
      (v.dot (c.minus (r.scaled (-Earth.MU / r.magnitude ^ 3)))) S s := by
  obtain ⟨⟨rx, ry, rz⟩, vx, vy, vz⟩ := coords h
  have e1 : ofFun (y s).1 = r := by rw [hrv]; rfl
  have e2 : ofFun (y s).2 = v := by rw [hrv]; rfl
  have hm : √(r.x * r.x + r.y * r.y + r.z * r.z) = r.magnitude := rfl
  have hq : r.x * r.x + r.y * r.y + r.z * r.z ≠ 0 := fun h0 => by rw [h0, Real.sqrt_zero] at hm; linarith
  have d1 := ((((rx.mul rx).add (ry.mul ry)).add (rz.mul rz)).sqrt (by simp only [Pi.add_apply, Pi.mul_apply, e1]; exact hq))
  have d2 := (((vx.mul vx).add (vy.mul vy)).add (vz.mul vz)).div_const 2
  have d3 := d2.sub ((d1.inv (by
    simp only [Pi.add_apply, Pi.mul_apply, e1]; rw [hm]; exact hr.ne')).const_mul Earth.MU)
  refine (d3.congr_of_eventuallyEq ?_ ?_).congr_deriv ?_
  · refine Filter.Eventually.of_forall fun t => ?_
    simp only [Spec.energy, Vec3.magnitude_sq]
    rfl
  · simp only [Spec.energy, Vec3.magnitude_sq]
    rfl
  · simp only [Pi.add_apply, Pi.mul_apply, e1, e2]
    rw [hm]
    simp only [Vec3.dot, Vec3.minus, Vec3.scaled]
    field_simp
    ring

theorem momentum_deriv {y : ℝ → Spec.Phase} {r v c : Vec3} {S : Set ℝ} {s : ℝ} (h : HasDerivWithinAt y (Spec.phase v c) S s)
    (hrv : y s = Spec.phase r v) :
    HasDerivWithinAt (fun s => ((ofFun (y s).1).cross (ofFun (y s).2)).toE)
      (r.cross (c.minus (r.scaled (-Earth.MU / r.magnitude ^ 3)))).toE S s := by
  obtain ⟨⟨rx, ry, rz⟩, vx, vy, vz⟩ := coords h
  have e1 : ofFun (y s).1 = r := by rw [hrv]; rfl
  have e2 : ofFun (y s).2 = v := by rw [hrv]; rfl
  have key : HasDerivWithinAt (fun s => ((ofFun (y s).1).cross (ofFun (y s).2)).toFun)
      (r.cross (c.minus (r.scaled (-Earth.MU / r.magnitude ^ 3)))).toFun S s := by
    rw [hasDerivWithinAt_pi]
    intro i
    fin_cases i
    · refine ((ry.mul vz).sub (rz.mul vy)).congr_deriv ?_
      show _ = r.y * (c.z - r.z * _) - r.z * (c.y - r.y * _)
      simp only [e1, e2]
      ring
    · refine ((rz.mul vx).sub (rx.mul vz)).congr_deriv ?_
      show _ = r.z * (c.x - r.x * _) - r.x * (c.z - r.z * _)
      simp only [e1, e2]
      ring
    · refine ((rx.mul vy).sub (ry.mul vx)).congr_deriv ?_
      show _ = r.x * (c.y - r.y * _) - r.y * (c.x - r.x * _)
      simp only [e1, e2]
      ring
  exact (EuclideanSpace.equiv (Fin 3) ℝ).symm.toContinuousLinearMap.hasFDerivAt.comp_hasDerivWithinAt s key

end Conserved

/-- **C172**: along a motion under the library's full force law without thrust, the specific energy changes in `s` seconds
by at most `ε s (W + ε s / 2)`, where `W` is the speed it would have at the lowest distance, and the angular momentum by at
most `ε hi s`. -/
theorem C172_drift (p : RK4) (hoff : p.m_dot = 0) (y : ℝ → Spec.Phase) (a b T lo hi : ℝ) (hy : p.Flight y a b)
    (hTb : T < b) (hlo : 5000 ≤ lo) (hhi : hi ≤ 300000)
    (hr : ∀ s ∈ Set.Icc 0 T, ∀ r v, y s = Spec.phase r v → lo ≤ r.magnitude ∧ r.magnitude ≤ hi ∧
      ∀ z, PositionConvert.gcrfToItrf r (p.state.epoch.plusDays (s / 86400)) ≠ .ok ⟨0, 0, z⟩)
    (W ε : ℝ) (hW : W = √(2 * (Spec.energy p.state.position p.state.velocity + Earth.MU / lo)))
    (hε : ε = Spec.perturbation lo hi) :
    ∀ s ∈ Set.Icc 0 T, ∀ r v, y s = Spec.phase r v →
      |Spec.energy r v - Spec.energy p.state.position p.state.velocity| ≤ ε * s * (W + ε * s / 2) ∧
      ((r.cross v).minus (p.state.position.cross p.state.velocity)).magnitude ≤ ε * hi * s := by
  intro s₀ hs₀ r₀ v₀ hrv₀
  have hT : 0 ≤ T := hs₀.1.trans hs₀.2
  have hM : 0 < Earth.MU := by norm_num [Earth.MU]
  have split : ∀ s, y s = Spec.phase (ofFun (y s).1) (ofFun (y s).2) := fun s => by simp only [Spec.phase, toFun_ofFun]
  have bounds := fun s hs => hr s hs _ _ (split s)
  have key := fun s (hs : s ∈ Set.Icc 0 T) => Conserved.rate p hoff hy hTb hlo hhi hr hs (split s)
  have cy : ∀ s ∈ Set.Icc 0 T, ContinuousAt y s := fun s hs =>
    hy.cont s (by linarith [hy.before, hs.1]) (by linarith [hs.2])
  have hε0 : 0 ≤ ε := by
    obtain ⟨-, h⟩ := (key 0 ⟨le_rfl, hT⟩).choose_spec
    rw [hε]; exact (Vec3.magnitude_nonneg _).trans h
  have s0 : ofFun (y 0).1 = p.state.position ∧ ofFun (y 0).2 = p.state.velocity := by
    rw [hy.start]; exact ⟨rfl, rfl⟩
  have cR : ∀ s ∈ Set.Icc 0 T, ∀ i, ContinuousAt (fun s => (y s).1 i) s := fun s hs i =>
    ((continuous_apply i).comp continuous_fst).continuousAt.comp (cy s hs)
  have cV : ∀ s ∈ Set.Icc 0 T, ∀ i, ContinuousAt (fun s => (y s).2 i) s := fun s hs i =>
    ((continuous_apply i).comp continuous_snd).continuousAt.comp (cy s hs)
  have fin₀ : ofFun (y s₀).1 = r₀ ∧ ofFun (y s₀).2 = v₀ := by rw [hrv₀]; exact ⟨rfl, rfl⟩
  constructor
  · have := energy_drift (x := fun s => Spec.energy (ofFun (y s).1) (ofFun (y s).2)) (T := T) (ε := ε) (c := Earth.MU / lo)
      (x' := fun s => if h : s ∈ Set.Icc 0 T then (ofFun (y s).2).dot ((key s h).choose.minus
        ((ofFun (y s).1).scaled (-Earth.MU / (ofFun (y s).1).magnitude ^ 3))) else 0)
      (k := fun s => (ofFun (y s).2).magnitude) (W := W) hε0
      (fun s hs => by
        have c1 := cR s hs
        have c2 := cV s hs
        have hpos : 0 < (ofFun (y s).1).magnitude := by linarith [(bounds s hs).1]
        have m1 : ContinuousAt (fun s => (ofFun (y s).1).magnitude) s :=
          ((((c1 0).mul (c1 0)).add ((c1 1).mul (c1 1))).add ((c1 2).mul (c1 2))).sqrt
        have m2 : ContinuousAt (fun s => (ofFun (y s).2).magnitude) s :=
          ((((c2 0).mul (c2 0)).add ((c2 1).mul (c2 1))).add ((c2 2).mul (c2 2))).sqrt
        exact (((m2.pow 2).div_const 2).sub (continuousAt_const.div m1 hpos.ne')).continuousWithinAt)
      (fun s hs => by
        have hs' : s ∈ Set.Icc 0 T := ⟨hs.1, hs.2.le⟩
        simp only [hs', dif_pos]
        exact Conserved.energy_deriv (key s hs').choose_spec.1 (split s) (by linarith [(bounds s hs').1]))
      (fun s _ => Vec3.magnitude_nonneg _)
      (fun s hs => by
        have h1 := (bounds s hs).1
        have h2 : Earth.MU / (ofFun (y s).1).magnitude ≤ Earth.MU / lo := by
          apply div_le_div_of_nonneg_left hM.le (by linarith) h1
        simp only [Spec.energy]
        linarith)
      (fun s hs => by
        have hs' : s ∈ Set.Icc 0 T := ⟨hs.1, hs.2.le⟩
        simp only [hs', dif_pos]
        refine (Vec3.cauchy _ _).trans ?_
        rw [mul_comm, hε]
        exact mul_le_mul_of_nonneg_right (key s hs').choose_spec.2 (Vec3.magnitude_nonneg _))
      (by simp only [s0]; exact hW) s₀ hs₀
    simp only [s0, fin₀] at this
    exact this
  · have := image_norm_le_of_norm_deriv_right_le_deriv_boundary (a := 0) (b := T)
      (f := fun s => ((ofFun (y s).1).cross (ofFun (y s).2)).toE - (p.state.position.cross p.state.velocity).toE)
      (f' := fun s => if h : s ∈ Set.Icc 0 T then ((ofFun (y s).1).cross ((key s h).choose.minus
        ((ofFun (y s).1).scaled (-Earth.MU / (ofFun (y s).1).magnitude ^ 3)))).toE else 0)
      (B := fun s => ε * hi * s) (B' := fun _ => ε * hi)
      (fun s hs => by
        have c1 := cR s hs
        have c2 := cV s hs
        have c : ContinuousAt (fun s => ((ofFun (y s).1).cross (ofFun (y s).2)).toFun) s := by
          rw [continuousAt_pi]
          intro i
          fin_cases i
          · exact ((c1 1).mul (c2 2)).sub ((c1 2).mul (c2 1))
          · exact ((c1 2).mul (c2 0)).sub ((c1 0).mul (c2 2))
          · exact ((c1 0).mul (c2 1)).sub ((c1 1).mul (c2 0))
        have := (EuclideanSpace.equiv (Fin 3) ℝ).symm.continuous.continuousAt.comp c
        exact (ContinuousAt.sub this continuousAt_const).continuousWithinAt)
      (fun s hs => by
        have hs' : s ∈ Set.Icc 0 T := ⟨hs.1, hs.2.le⟩
        simp only [hs', dif_pos]
        exact (Conserved.momentum_deriv (key s hs').choose_spec.1 (split s)).sub_const _)
      (by simp [s0])
      (fun s => by simpa using (hasDerivAt_id s).const_mul (ε * hi))
      (fun s hs => by
        have hs' : s ∈ Set.Icc 0 T := ⟨hs.1, hs.2.le⟩
        simp only [hs', dif_pos, Vec3.norm_toE]
        refine (F64.cross_magnitude_le _ _).trans ?_
        rw [mul_comm, hε]
        exact mul_le_mul (key s hs').choose_spec.2 (bounds s hs').2.1 (Vec3.magnitude_nonneg _) (by rw [← hε]; exact hε0))
      hs₀
    simp only [fin₀, ← toE_minus, Vec3.norm_toE] at this
    exact this

namespace Conserved

/-- nearly equal vectors have nearly equal directions -/
theorem direction {w w0 : Vec3} {c c0 d : ℝ} (hw : w.dot w = 1) (hw0 : w0.dot w0 = 1) (hc : 0 < c) (hc0 : 0 < c0)
    (h : ((w.scaled c).minus (w0.scaled c0)).magnitude ≤ d) : |c - c0| ≤ d ∧ |w.z - w0.z| ≤ 2 * d / c0 := by
  have m1 : w.magnitude = 1 := Vec3.magnitude_of_dot (by norm_num) (by rw [hw]; norm_num)
  have m0 : w0.magnitude = 1 := Vec3.magnitude_of_dot (by norm_num) (by rw [hw0]; norm_num)
  have t1 := Vec3.magnitude_plus_le (w0.scaled c0) ((w.scaled c).minus (w0.scaled c0))
  have t2 := Vec3.magnitude_plus_le (w.scaled c) ((w0.scaled c0).minus (w.scaled c))
  rw [show (w0.scaled c0).plus ((w.scaled c).minus (w0.scaled c0)) = w.scaled c by ext <;> simp [Vec3.plus, Vec3.minus],
    Vec3.magnitude_scaled_abs, Vec3.magnitude_scaled_abs, m1, m0, abs_of_pos hc, abs_of_pos hc0] at t1
  rw [show (w.scaled c).plus ((w0.scaled c0).minus (w.scaled c)) = w0.scaled c0 by ext <;> simp [Vec3.plus, Vec3.minus],
    Vec3.magnitude_scaled_abs, Vec3.magnitude_scaled_abs, m1, m0, abs_of_pos hc, abs_of_pos hc0, Perturbed.minus_swap] at t2
  have hcc : |c - c0| ≤ d := by rw [abs_le]; constructor <;> linarith
  refine ⟨hcc, ?_⟩
  have hz := ((w.scaled c).minus (w0.scaled c0)).abs_z_le.trans h
  have hz' : |w.z * c - w0.z * c0| ≤ d := hz
  have wz := w.abs_z_le
  rw [m1] at wz
  rw [le_div_iff₀ hc0]
  conv_lhs => rw [← abs_of_pos hc0, ← abs_mul]
  have e : (w.z - w0.z) * c0 = (w.z * c - w0.z * c0) - w.z * (c - c0) := by ring
  rw [e]
  refine (abs_sub _ _).trans ?_
  rw [abs_mul]
  have := mul_le_mul wz hcc (abs_nonneg _) zero_le_one
  linarith

end Conserved

/-- **C172**, for the elements: as long as the changes of energy and angular momentum do not exhaust them, `from_ijk`
succeeds for the state of the motion after `s` seconds, and the energy, angular momentum and inclination of its elements
are as close to those of the start. `W` is the speed on the first orbit at the lowest distance. -/
theorem C172_elements (p : RK4) (hoff : p.m_dot = 0) (y : ℝ → Spec.Phase) (a b T lo hi : ℝ) (hy : p.Flight y a b)
    (hTb : T < b) (hlo : 5000 ≤ lo) (hhi : hi ≤ 300000)
    (hr : ∀ s ∈ Set.Icc 0 T, ∀ r v, y s = Spec.phase r v → lo ≤ r.magnitude ∧ r.magnitude ≤ hi ∧
      ∀ z, PositionConvert.gcrfToItrf r (p.state.epoch.plusDays (s / 86400)) ≠ .ok ⟨0, 0, z⟩)
    (hb : p.state.velocity.magnitude ^ 2 / 2 < Earth.MU / p.state.position.magnitude)
    (hp : p.state.position.cross p.state.velocity ≠ ⟨0, 0, 0⟩) :
    ∃ el0, ClassicalElements.fromIjk p.state.toState = .ok el0 ∧
      ∀ W ε, W = √(Earth.MU * (2 / lo - 1 / el0.semimajor_axis)) → ε = Spec.perturbation lo hi →
      ∀ s ∈ Set.Icc 0 T, ∀ st : State, y s = Spec.phase st.position st.velocity →
        ε * s * (W + ε * s / 2) < Earth.MU / (2 * el0.semimajor_axis) →
        ε * hi * s < √(Earth.MU * (el0.semimajor_axis * (1 - el0.eccentricity ^ 2))) →
        ∃ el, ClassicalElements.fromIjk st = .ok el ∧
          |Earth.MU / (2 * el.semimajor_axis) - Earth.MU / (2 * el0.semimajor_axis)| ≤ ε * s * (W + ε * s / 2) ∧
          |√(Earth.MU * (el.semimajor_axis * (1 - el.eccentricity ^ 2))) -
            √(Earth.MU * (el0.semimajor_axis * (1 - el0.eccentricity ^ 2)))| ≤ ε * hi * s ∧
          |cos el.inclination - cos el0.inclination| ≤
            2 * (ε * hi * s) / √(Earth.MU * (el0.semimajor_axis * (1 - el0.eccentricity ^ 2))) := by
  have hM : 0 < Earth.MU := by norm_num [Earth.MU]
  have ne : ∀ r v : Vec3, r.cross v ≠ ⟨0, 0, 0⟩ → r ≠ ⟨0, 0, 0⟩ := fun r v h h0 => h (by
    rw [h0]; ext <;> simp [Vec3.cross])
  obtain ⟨el0, E0, nu0, w0, h0, -, a0, e0, e0', en0, -, -, -, -, -, -, hw0, hc0, hi0, -⟩ :=
    fromIjk_bound p.state.toState (ne _ _ hp) hp hb
  refine ⟨el0, h0, fun W ε hW hε s hs st hst h1 h2 => ?_⟩
  have en0' : Spec.energy p.state.position p.state.velocity = -Earth.MU / (2 * el0.semimajor_axis) := en0
  have hW' : W = √(2 * (Spec.energy p.state.position p.state.velocity + Earth.MU / lo)) := by
    rw [hW, en0']; congr 1; field_simp; ring
  obtain ⟨d1, d2⟩ := C172_drift p hoff y a b T lo hi hy hTb hlo hhi hr W ε hW' hε s hs _ _ hst
  obtain ⟨c0, hc0d⟩ : ∃ c, c = √(Earth.MU * (el0.semimajor_axis * (1 - el0.eccentricity ^ 2))) := ⟨_, rfl⟩
  have c0p : 0 < c0 := by
    rw [hc0d]
    have : 0 < 1 - el0.eccentricity ^ 2 := by nlinarith
    positivity
  have hc0' : p.state.position.cross p.state.velocity = w0.scaled c0 := by rw [hc0d]; exact hc0
  rw [hc0'] at d2
  rw [← hc0d] at h2 ⊢
  have m0 : w0.magnitude = 1 := Vec3.magnitude_of_dot (by norm_num) (by rw [hw0]; norm_num)
  have hcr : st.position.cross st.velocity ≠ ⟨0, 0, 0⟩ := by
    intro h
    rw [h, Perturbed.minus_swap, show (w0.scaled c0).minus ⟨0, 0, 0⟩ = w0.scaled c0 by ext <;> simp [Vec3.minus],
      Vec3.magnitude_scaled_abs, m0, abs_of_pos c0p] at d2
    linarith
  have hbs : st.velocity.magnitude ^ 2 / 2 < Earth.MU / st.position.magnitude := by
    have h3 : Spec.energy st.position st.velocity < 0 := by
      have := (abs_le.mp d1).2
      rw [en0', neg_div] at this
      linarith
    rw [Spec.energy] at h3
    linarith
  obtain ⟨el, E, nu, w, h', -, a1, e1, e1', en, -, -, -, -, -, -, hw, hc, hi', -⟩ := fromIjk_bound st (ne _ _ hcr) hcr hbs
  obtain ⟨c, hcd⟩ : ∃ c, c = √(Earth.MU * (el.semimajor_axis * (1 - el.eccentricity ^ 2))) := ⟨_, rfl⟩
  have cp : 0 < c := by
    rw [hcd]
    have : 0 < 1 - el.eccentricity ^ 2 := by nlinarith
    positivity
  rw [← hcd] at hc
  rw [hc] at d2
  obtain ⟨f1, f2⟩ := Conserved.direction hw hw0 cp c0p d2
  refine ⟨el, h', ?_, by rw [← hcd]; exact f1, by
    rw [hi', (frame_of_normal hw).2.1, hi0, (frame_of_normal hw0).2.1]; exact f2⟩
  have en' : Spec.energy st.position st.velocity = -Earth.MU / (2 * el.semimajor_axis) := en
  rw [en', en0', abs_sub_comm] at d1
  refine le_trans (le_of_eq ?_) d1
  congr 1
  ring

/-- **C172**, for the propagator: the energy and the angular momentum of the states that `N` steps of `T / N` seconds end
in obey the same bounds, up to any tolerance `η`, for every large enough `N`. -/
theorem C172_propagation (p : RK4) (hsrp : p.state.srp_scalar = 0) (hpert : p.state.use_perturbations = true)
    (hoff : p.m_dot = 0) (y : ℝ → Spec.Phase) (a b T lo hi : ℝ) (hy : p.Flight y a b)
    (hT : 0 ≤ T) (hTb : T < b) (hlo : 5000 ≤ lo) (hhi : hi ≤ 300000)
    (hr : ∀ s ∈ Set.Icc 0 T, ∀ r v, y s = Spec.phase r v → lo ≤ r.magnitude ∧ r.magnitude ≤ hi ∧
      ∀ z, PositionConvert.gcrfToItrf r (p.state.epoch.plusDays (s / 86400)) ≠ .ok ⟨0, 0, z⟩)
    (W ε : ℝ) (hW : W = √(2 * (Spec.energy p.state.position p.state.velocity + Earth.MU / lo)))
    (hε : ε = Spec.perturbation lo hi) :
    ∀ η > 0, ∃ N0, 0 < N0 ∧ ∀ N : ℕ, N0 ≤ N → ∃ q,
      PyM.repeatN N RK4.step { p with step_size := T / N } = (.ok (), q) ∧
      |Spec.energy q.state.position q.state.velocity - Spec.energy p.state.position p.state.velocity| ≤
        ε * T * (W + ε * T / 2) + η ∧
      ((q.state.position.cross q.state.velocity).minus (p.state.position.cross p.state.velocity)).magnitude ≤
        ε * hi * T + η := by
  intro η hη
  obtain ⟨r, v, hrv⟩ : ∃ r v, y T = Spec.phase r v :=
    ⟨ofFun (y T).1, ofFun (y T).2, by simp only [Spec.phase, toFun_ofFun]⟩
  have hTm : T ∈ Set.Icc 0 T := ⟨hT, le_rfl⟩
  obtain ⟨d1, d2⟩ := C172_drift p hoff y a b T lo hi hy hTb hlo hhi hr W ε hW hε T hTm r v hrv
  obtain ⟨g1, -⟩ := hr T hTm r v hrv
  have c1 : ContinuousAt (fun x : Spec.Phase => Spec.energy (ofFun x.1) (ofFun x.2)) (Spec.phase r v) := by
    have hpos : (ofFun (Spec.phase r v).1).magnitude ≠ 0 := by
      show r.magnitude ≠ 0
      linarith
    have e1 : ∀ i, Continuous (fun x : Spec.Phase => x.1 i) := fun i => (continuous_apply i).comp continuous_fst
    have e2 : ∀ i, Continuous (fun x : Spec.Phase => x.2 i) := fun i => (continuous_apply i).comp continuous_snd
    have m1 : Continuous (fun x : Spec.Phase => (ofFun x.1).magnitude) :=
      ((((e1 0).mul (e1 0)).add ((e1 1).mul (e1 1))).add ((e1 2).mul (e1 2))).sqrt
    have m2 : Continuous (fun x : Spec.Phase => (ofFun x.2).magnitude) :=
      ((((e2 0).mul (e2 0)).add ((e2 1).mul (e2 1))).add ((e2 2).mul (e2 2))).sqrt
    exact ((m2.continuousAt.pow 2).div_const 2).sub (continuousAt_const.div m1.continuousAt hpos)
  have c2 : Continuous (fun x : Spec.Phase => (((ofFun x.1).cross (ofFun x.2)).minus (r.cross v)).magnitude) := by
    have e1 : ∀ i, Continuous (fun x : Spec.Phase => x.1 i) := fun i => (continuous_apply i).comp continuous_fst
    have e2 : ∀ i, Continuous (fun x : Spec.Phase => x.2 i) := fun i => (continuous_apply i).comp continuous_snd
    have k1 := (((e1 1).mul (e2 2)).sub ((e1 2).mul (e2 1))).sub (continuous_const (y := (r.cross v).x))
    have k2 := (((e1 2).mul (e2 0)).sub ((e1 0).mul (e2 2))).sub (continuous_const (y := (r.cross v).y))
    have k3 := (((e1 0).mul (e2 1)).sub ((e1 1).mul (e2 0))).sub (continuous_const (y := (r.cross v).z))
    exact (((k1.mul k1).add (k2.mul k2)).add (k3.mul k3)).sqrt
  obtain ⟨δ1, hδ1, h1⟩ := Metric.continuousAt_iff.mp c1 η hη
  obtain ⟨δ2, hδ2, h2⟩ := Metric.continuousAt_iff.mp (c2.continuousAt (x := Spec.phase r v)) η hη
  obtain ⟨C, N1, hN1, hconv⟩ := C168_convergence p hsrp hpert hoff y a b T hy (by linarith [hy.before]) hTb
    (fun s hs r v hrv => by
      rw [Set.uIcc_of_le hT] at hs
      obtain ⟨g1, g2, g3⟩ := hr s hs r v hrv
      exact ⟨by linarith, g3⟩)
  obtain ⟨D, hD⟩ : ∃ D : ℤ, D = |Spec.utcDay (p.state.epoch.plusDays (T / 86400)) - Spec.utcDay p.state.epoch| := ⟨_, rfl⟩
  have lim : Tendsto (fun N : ℕ => C * (|T / N| ^ 4 + D * |T / N|)) atTop (𝓝 (C * (|(0 : ℝ)| ^ 4 + D * |(0 : ℝ)|))) := by
    have h1 : Tendsto (fun N : ℕ => |T / (N : ℝ)|) atTop (𝓝 |0|) := (tendsto_const_div_atTop_nhds_zero_nat T).abs
    exact ((h1.pow 4).add (h1.const_mul _)).const_mul _
  have small : ∀ᶠ N : ℕ in atTop, C * (|T / N| ^ 4 + D * |T / N|) < min δ1 δ2 :=
    lim.eventually (gt_mem_nhds (by simp; exact ⟨hδ1, hδ2⟩))
  obtain ⟨N2, hN2⟩ := eventually_atTop.mp small
  refine ⟨max N1 N2, lt_max_of_lt_left hN1, fun N hN => ?_⟩
  have hNpos : (0 : ℝ) < N := by exact_mod_cast (by omega : 0 < N)
  obtain ⟨q, q1, q2, q3⟩ := hconv N ((le_max_left _ _).trans hN) N le_rfl
  have e : N * (T / N) = T := by field_simp
  rw [e] at q2 q3
  rw [q2, hrv] at q3
  have q4 := hN2 N ((le_max_right _ _).trans hN)
  rw [hD] at q4
  have q5 : dist (Spec.phase q.state.position q.state.velocity) (Spec.phase r v) < min δ1 δ2 := by
    rw [dist_eq_norm]
    exact lt_of_le_of_lt q3 (by exact_mod_cast q4)
  have k1 := h1 (lt_of_lt_of_le q5 (min_le_left _ _))
  have k2 := h2 (lt_of_lt_of_le q5 (min_le_right _ _))
  rw [Real.dist_eq] at k1 k2
  have k1' : |Spec.energy q.state.position q.state.velocity - Spec.energy r v| < η := k1
  have zero : ((r.cross v).minus (r.cross v)).magnitude = 0 := by simp [Vec3.magnitude, sqrtNN, Vec3.minus]
  have k2' : |((q.state.position.cross q.state.velocity).minus (r.cross v)).magnitude -
    ((r.cross v).minus (r.cross v)).magnitude| < η := k2
  rw [zero, sub_zero] at k2'
  refine ⟨q, q1, ?_, ?_⟩
  · have := abs_add_le (Spec.energy q.state.position q.state.velocity - Spec.energy r v)
      (Spec.energy r v - Spec.energy p.state.position p.state.velocity)
    rw [sub_add_sub_cancel] at this
    linarith
  · have t := Vec3.magnitude_plus_le ((q.state.position.cross q.state.velocity).minus (r.cross v))
      ((r.cross v).minus (p.state.position.cross p.state.velocity))
    rw [show ((q.state.position.cross q.state.velocity).minus (r.cross v)).plus
      ((r.cross v).minus (p.state.position.cross p.state.velocity)) =
      (q.state.position.cross q.state.velocity).minus (p.state.position.cross p.state.velocity) by
        ext <;> simp [Vec3.plus, Vec3.minus]] at t
    linarith [(abs_lt.mp k2').2]

/-! ## the inclined geosynchronous orbit during one hour -/

theorem geoTilted_hour : ∃ y a b, geoTilted.Flight y a b ∧ 3600 < b ∧ ∀ s ∈ Set.Icc (0 : ℝ) 3600, ∀ r v,
    y s = Spec.phase r v → 40000 ≤ r.magnitude ∧ r.magnitude ≤ 43000 ∧
      ∀ z, PositionConvert.gcrfToItrf r (geoTilted.state.epoch.plusDays (s / 86400)) ≠ .ok ⟨0, 0, z⟩ := by
  obtain ⟨hb, hp⟩ := geoTilted_bound
  obtain ⟨el, -, -, -, hel, -⟩ := fromIjk_bound geoTilted.state.toState
    (fun h => by
      have : (42164 : ℝ) = 0 := congrArg Vec3.x h
      norm_num at this)
    (fun h => hp (congrArg Vec3.y h)) hb
  obtain ⟨g1, g2, g3, g4⟩ := geoTilted_elements hel
  have gi := geoTilted_inclination hel
  exact C171_existence geoTilted rfl 3600 40000 43000 0.95 (by norm_num) (by norm_num)
    (by norm_num) (fun s hs => geoMidnight_centuries (by rw [abs_of_nonneg hs.1]; exact hs.2)) hb (.inr hp) el hel
    (by linarith) (by linarith) (by linarith) _ _ rfl rfl (by norm_num) (geoTilted_drift rfl rfl)

/-- its elements can be computed all the time, its inclination is nearly constant, and so is its energy -/
example : ∃ (y : ℝ → Spec.Phase) (a b : ℝ) (el0 : ClassicalElements), geoTilted.Flight y a b ∧ 3600 < b ∧
    ClassicalElements.fromIjk geoTilted.state.toState = .ok el0 ∧ ∀ s ∈ Set.Icc (0 : ℝ) 3600, ∀ st : State,
      y s = Spec.phase st.position st.velocity → ∃ el, ClassicalElements.fromIjk st = .ok el ∧
        |Earth.MU / (2 * el.semimajor_axis) - Earth.MU / (2 * el0.semimajor_axis)| ≤ 2e-3 ∧
        |cos el.inclination - cos el0.inclination| ≤ 2e-4 := by
  obtain ⟨y, a, b, hy, hTb, hr⟩ := geoTilted_hour
  obtain ⟨hb, hp⟩ := geoTilted_bound
  obtain ⟨el0, h0, H⟩ := C172_elements geoTilted rfl y a b 3600 40000 43000 hy hTb (by norm_num) (by norm_num) hr hb
    (fun h => hp (congrArg Vec3.y h))
  obtain ⟨g1, g2, g3, g4⟩ := geoTilted_elements h0
  refine ⟨y, a, b, el0, hy, hTb, h0, fun s hs st hst => ?_⟩
  have H' := H _ _ rfl rfl s hs st hst
  obtain ⟨ε, hε⟩ : ∃ ε, ε = Spec.perturbation 40000 43000 := ⟨_, rfl⟩
  obtain ⟨W, hW⟩ : ∃ W, W = √(Earth.MU * (2 / 40000 - 1 / el0.semimajor_axis)) := ⟨_, rfl⟩
  obtain ⟨c, hc⟩ : ∃ c, c = √(Earth.MU * (el0.semimajor_axis * (1 - el0.eccentricity ^ 2))) := ⟨_, rfl⟩
  rw [← hε, ← hW, ← hc] at H'
  have ha : 0 < el0.semimajor_axis := by
    by_contra h
    nlinarith
  have hε0 : 0 ≤ ε := by rw [hε]; norm_num [Spec.perturbation, Earth.MU, Earth.RADIUS, Moon.MU]
  have hε1 : ε ≤ 7e-8 := by rw [hε]; norm_num [Spec.perturbation, Earth.MU, Earth.RADIUS, Moon.MU]
  have hW0 : 0 ≤ W := by rw [hW]; exact Real.sqrt_nonneg _
  have hW1 : W ≤ 5 := by
    rw [hW]
    refine Real.sqrt_le_iff.mpr ⟨by norm_num, ?_⟩
    have : 0 < el0.semimajor_axis⁻¹ := inv_pos.mpr ha
    norm_num [Earth.MU]
    linarith
  have hc1 : 120000 ≤ c := by
    rw [hc]
    refine Real.le_sqrt_of_sq_le ?_
    have he : 0 ≤ el0.eccentricity := by
      obtain ⟨el', E, -, -, h', -, -, e0, -⟩ := fromIjk_bound geoTilted.state.toState
        (fun h => by
          have : (42164 : ℝ) = 0 := congrArg Vec3.x h
          norm_num at this)
        (fun h => hp (congrArg Vec3.y h)) hb
      cases h0.symm.trans h'
      exact e0
    have : 41000 ≤ el0.semimajor_axis * (1 - el0.eccentricity ^ 2) := by nlinarith [mul_nonneg ha.le he]
    norm_num [Earth.MU]
    linarith
  have t1 : ε * s ≤ 3e-4 := by
    have := mul_le_mul hε1 hs.2 hs.1 (by norm_num)
    linarith
  have t0 : 0 ≤ ε * s := mul_nonneg hε0 hs.1
  have t2 : ε * s * (W + ε * s / 2) ≤ 2e-3 := by nlinarith
  have t3 : ε * 43000 * s ≤ 12 := by
    have := mul_le_mul hε1 hs.2 hs.1 (by norm_num)
    linarith
  obtain ⟨el, h1, h2, -, h4⟩ := H' (by
    refine t2.trans_lt ?_
    rw [lt_div_iff₀ (by positivity)]
    norm_num [Earth.MU]
    linarith) (by linarith)
  refine ⟨el, h1, h2.trans t2, h4.trans ?_⟩
  rw [div_le_iff₀ (by linarith)]
  linarith

example : ∃ N0, 0 < N0 ∧ ∀ N : ℕ, N0 ≤ N → ∃ q,
    PyM.repeatN N RK4.step { geoTilted with step_size := 3600 / N } = (.ok (), q) ∧
    |Spec.energy q.state.position q.state.velocity - Spec.energy geoTilted.state.position geoTilted.state.velocity| ≤
      Spec.perturbation 40000 43000 * 3600 *
        (√(2 * (Spec.energy geoTilted.state.position geoTilted.state.velocity + Earth.MU / 40000)) +
          Spec.perturbation 40000 43000 * 3600 / 2) + 1e-6 := by
  obtain ⟨y, a, b, hy, hTb, hr⟩ := geoTilted_hour
  obtain ⟨N0, hN0, h⟩ := C172_propagation geoTilted rfl rfl rfl y a b 3600 40000 43000 hy (by norm_num) hTb (by norm_num)
    (by norm_num) hr _ _ rfl rfl 1e-6 (by norm_num)
  refine ⟨N0, hN0, fun N hN => ?_⟩
  obtain ⟨q, q1, q2, -⟩ := h N hN
  exact ⟨q, q1, q2⟩

end Openspace
