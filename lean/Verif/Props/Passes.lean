import Verif.Props.FiniteSteps
import Verif.Props.LookMargin
import Verif.Props.Attitude

/-!
# C180: passes of a new spacecraft forecast from its elements

The way of a forecast from one end to the other: classical elements of the state a spacecraft is built with, `to_ijk`
for the advanced mean anomaly, `angles_and_range` for the state so predicted, against `step_to_epoch` of the spacecraft
and `angles_and_range` for where it got to.
-/

set_option linter.unusedSectionVars false

namespace Openspace

open Real Spec Spacecraft LookMargin

variable {ι : Type} [DecidableEq ι]

/-- `step_to_epoch` of a spacecraft in its first mode moves its propagator and then returns -/
theorem Passes.step {w : World ι} (hw : Fresh w) (i : ι) (d : ℕ) (t : Epoch) {q : RK4}
    (h : RK4.stepToEpoch t (w i).propagator = (.ok (), q)) :
    ∃ w', (Call.stepToEpoch i t).run (d + 1) w = (.ok (), w') ∧ (w' i).propagator = q := by
  obtain ⟨h1, -, h3, -⟩ := fresh_fields hw i
  obtain ⟨v, hv⟩ : ∃ v, v = Function.update w i { w i with propagator := q } := ⟨_, rfl⟩
  have hvi : v i = { w i with propagator := q } := by rw [hv, Function.update_self]
  have e : (Call.stepToEpoch i t).run (d + 1) w = Spacecraft.updateAttitude (d + 1) i v := by
    show ((onPropagator i (RK4.stepToEpoch t) >>= fun _ => Spacecraft.updateAttitude (d + 1) i) : PyM (World ι) Unit) w = _
    show PyM.bind _ _ w = _
    simp only [PyM.bind, onPropagator, PyM.zoom, h, hv]
  rw [e, updateAttitude_succ, if_pos (by rw [hvi]; exact h1)]
  obtain ⟨u, hu⟩ : ∃ u, u = Function.update v i (v i).lvlhAttitude := ⟨_, rfl⟩
  have hui : u i = (v i).lvlhAttitude := by rw [hu, Function.update_self]
  have e2 : ((assign i lvlhAttitude >>= fun _ => finishCall i) : PyM (World ι) Unit) v = finishCall i u := by
    rw [hu]; rfl
  rw [e2, finishCall_apply]
  have hs : (u i).finishSlew = .ok (u i) := by
    have : (u i).slewing = false := by rw [hui, hvi]; exact h3
    unfold finishSlew
    simp [this]
  rw [hs]
  exact ⟨_, rfl, by rw [Function.update_self, hui, hvi]; rfl⟩

/-- **Passes forecast from the elements**: a new spacecraft on an ellipse as in C174 is taken to a later epoch.  The call
returns, and whatever a site at or above the ellipsoid is told of a spacecraft `f` at the place and epoch that `to_ijk`
predicts, it will see of the true one up to the bounds of C178 for the error `e` of C174. -/
theorem C180_passes (w : World ι) (hw : Fresh w) (i : ι) (n : ℕ) (p : RK4) (hpi : p = (w i).propagator)
    (t : Epoch) (T lo hi m : ℝ) (hTt : T = (t.value - p.state.epoch.value) * 86400) (hT : 0 < T) (hlo : 5000 ≤ lo)
    (hhi : hi ≤ 300000) (hepoch : ∀ s ∈ Set.Icc 0 T, |(p.state.epoch.plusDays (s / 86400)).julianCenturies| ≤ 5)
    (hb : p.state.velocity.magnitude ^ 2 / 2 < Earth.MU / p.state.position.magnitude)
    (hp : (p.state.position.cross p.state.velocity).x ≠ 0 ∨ (p.state.position.cross p.state.velocity).y ≠ 0)
    (el : ClassicalElements) (hel : ClassicalElements.fromIjk p.state.toState = .ok el)
    (hper : lo + m ≤ el.semimajor_axis * (1 - el.eccentricity))
    (hapo : el.semimajor_axis * (1 + el.eccentricity) + m ≤ hi)
    (hinc : 9 * m ≤ (8 * |cos el.inclination| - 1) * lo) (hm0 : 0 < m)
    (ω ε δ e D : ℝ) (hω : ω = √(2 * Earth.MU / lo ^ 3)) (hε : ε = Spec.perturbation lo hi)
    (hδ : δ = (1 + (ω * 300) ^ 2 / 6) * ε + 18 * Earth.MU ^ 2 / lo ^ 5 * 300 ^ 2)
    (hm : δ / ω ^ 2 * (exp (ω * T) - 1 - ω * T) + Earth.MU / lo ^ 2 * 300 ^ 2 ≤ m)
    (j : ℤ) (ma : ℝ)
    (hma : ma = el.mean_anomaly + √(Earth.MU / el.semimajor_axis ^ 3) * T + 2 * π * j)
    (ma1 : -(2 * π) ≤ ma) (ma2 : ma ≤ 2 * π)
    (he : e = δ / ω ^ 2 * (exp (ω * T) - 1 - ω * T) + el.semimajor_axis * (5e-25 / (1 - el.eccentricity)))
    (hD : D = (1 + 5.5e-9) * e) :
    ∃ w' s' F, (Call.stepToEpoch i t).run (n + 1) w = (.ok (), w') ∧ (w' i).currentEpoch = t ∧
      (∀ fuel, F ≤ fuel → ({el with mean_anomaly := ma} : ClassicalElements).toIjk fuel = .ok s') ∧
      ∀ (f : Spacecraft ι), f.position = s'.position → f.currentEpoch = t → ∀ lat lon h : ℝ, 0 ≤ h →
        ∃ g o o' x, GroundSite.new ⟨lat, lon, h⟩ = .ok g ∧ g.anglesAndRange f = .ok o ∧ g.anglesAndRange (w' i) = .ok o' ∧
          PositionConvert.gcrfToItrf (w' i).position t = .ok x ∧ |o'.range - o.range| ≤ D ∧
          (D < o.range → |o'.elevation - o.elevation| ≤ arcsin (D / o.range)) ∧
          (D < o.range * cos o.elevation →
            ∃ k : ℤ, |o'.azimuth - o.azimuth - 2 * π * k| ≤ arcsin (D / (o.range * cos o.elevation))) ∧
          (D < o.range → arcsin (D / o.range) ≤ o.elevation →
            ∀ y, 0 ≤ y → ¬ InsideEllipsoid (sightPoint g.itrf_position x y)) ∧
          (h = 0 → D < o.range → o.elevation < -arcsin (D / o.range) →
            ∃ y, 0 < y ∧ y ≤ 1 ∧ InsideEllipsoid (sightPoint g.itrf_position x y)) := by
  obtain ⟨hsrp, hoff⟩ : p.state.srp_scalar = 0 ∧ p.m_dot = 0 := by
    obtain ⟨g, hg⟩ := hw i
    obtain ⟨s, h1, -, -, h2, -⟩ := new_ok (ι := ι) g
    rw [hg] at h1
    cases h1
    rw [hpi, h2]
    exact ⟨rfl, rfl⟩
  obtain ⟨q, h1, h2, -, s', F, h3, h4, -⟩ := C174_epoch p hsrp hoff t T lo hi m hTt hT hlo hhi hepoch hb hp el hel hper hapo
    hinc hm0 ω ε δ hω hε hδ hm j ma hma ma1 ma2
  obtain ⟨w', k1, k2⟩ := Passes.step hw i n t (hpi ▸ h1)
  have ke : (w' i).currentEpoch = t := by rw [currentEpoch_eq, k2, h2]
  have kp : (w' i).position = q.state.position := by rw [position_eq, k2]
  refine ⟨w', s', F, k1, ke, h3, fun f hf hfe lat lon h hh => ?_⟩
  have hd : ((w' i).position.minus f.position).magnitude ≤ e := by
    rw [kp, hf, ← Vec3.norm_toE, toE_minus, norm_sub_rev, ← toE_minus, Vec3.norm_toE, he]; exact h4
  have hee : (w' i).currentEpoch = f.currentEpoch := by rw [ke, hfe]
  obtain ⟨g, o, x, g1, g2, g3, g4⟩ := C178_in_view lat lon h hh f (w' i) e D hD hee hd
  obtain ⟨o₁, o', a1, a2, a3⟩ := C178_angles _ g g1 f (w' i) e hee hd
  rw [g2] at a1; cases a1
  obtain ⟨b1, b2, b3⟩ := a3 D hD
  rw [ke] at g3
  refine ⟨g, o, o', x, g1, g2, a2, g3, b1, b2, b3, g4, fun h0 => ?_⟩
  subst h0
  obtain ⟨g', o₂, x', c1, c2, c3, c4⟩ := C178_out_of_view lat lon f (w' i) e D hD hee hd
  rw [g1] at c1; cases c1
  rw [g2] at c2; cases c2
  rw [ke, g3] at c3; cases c3
  exact c4

/-- a spacecraft built on a tilted orbit of geostationary size: an hour later, the range from every site is within 35 km
of the range forecast from the elements -/
example : ∃ w : World Unit, Fresh w ∧ ∃ el ma w' s' F, ClassicalElements.fromIjk (w ()).propagator.state.toState = .ok el ∧
    (Call.stepToEpoch () ((w ()).propagator.state.epoch.plusDays (3600 / 86400))).run 1 w = (.ok (), w') ∧
    (∀ fuel, F ≤ fuel → ({el with mean_anomaly := ma} : ClassicalElements).toIjk fuel = .ok s') ∧
    ∀ f : Spacecraft Unit, f.position = s'.position →
      f.currentEpoch = (w ()).propagator.state.epoch.plusDays (3600 / 86400) → ∀ lat lon h : ℝ, 0 ≤ h →
      ∃ g o o', GroundSite.new ⟨lat, lon, h⟩ = .ok g ∧ g.anglesAndRange f = .ok o ∧ g.anglesAndRange (w' ()) = .ok o' ∧
        |o'.range - o.range| ≤ 35 := by
  obtain ⟨w, hw, hg⟩ := exists_fresh (ι := Unit) fun _ => geoTilted.state
  have hp0 : (w ()).propagator = geoTilted := by
    obtain ⟨s, h1, -, -, h2, -⟩ := new_ok (ι := Unit) geoTilted.state
    rw [hg ()] at h1
    cases h1
    rw [h2]
    rfl
  obtain ⟨hb, hp⟩ := geoTilted_bound
  obtain ⟨el, hel, j, ma, hma, ma1, ma2, tol⟩ := geoTilted_advance
  obtain ⟨g1, g2, g3, g4⟩ := geoTilted_elements hel
  have gi := geoTilted_inclination hel
  have drift := geoTilted_finite (h := 300) rfl rfl (by norm_num) (by norm_num) rfl
  have hA : Earth.MU / 40000 ^ 2 * 300 ^ 2 ≤ 23 := by norm_num [Earth.MU]
  obtain ⟨w', s', F, h1, -, h3, h4⟩ := C180_passes w hw () 0 geoTilted hp0.symm
    (geoTilted.state.epoch.plusDays (3600 / 86400)) 3600
    40000 43000 60 (by simp only [Epoch.plusDays]; ring) (by norm_num) (by norm_num)
    (by norm_num) (fun s hs => geoMidnight_centuries (by rw [abs_of_nonneg hs.1]; exact hs.2)) hb (.inr hp) el hel
    (by linarith) (by linarith) (by linarith) (by norm_num) _ _ _ _ _ rfl rfl rfl
    (by linarith) j ma hma ma1 ma2 rfl rfl
  refine ⟨w, hw, el, ma, w', s', F, by rw [hp0]; exact hel, by rw [hp0]; exact h1, h3, fun f hf hfe lat lon h hh => ?_⟩
  rw [hp0] at hfe
  obtain ⟨g, o, o', x, a1, a2, a3, -, a5, -⟩ := h4 f hf hfe lat lon h hh
  exact ⟨g, o, o', a1, a2, a3, a5.trans (by linarith)⟩

end Openspace
