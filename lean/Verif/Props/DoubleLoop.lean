import Verif.Props.Double
import Verif.Model.DoubleLoop

/-!
# C118, C119: simulation loops in double precision
-/

namespace Openspace

open F64

namespace F64

/-- what `step` adds to a clock -/
noncomputable def pace : ℝ := 477218588 * Spec.resolution

theorem tick_pace (a : ℤ) (n : ℕ) : tick (a + n * 477218588) = tick a + n * pace := by
  unfold tick pace Spec.resolution; push_cast; ring

theorem pace_step {a : ℤ} (h1 : 2 ^ 52 ≤ a) (h2 : a + 477218588 < 2 ^ 53) :
    step 300 (tick a) = tick (a + 477218588) := by
  have e1 : rnd (300 / 2 : ℝ) = 150 := by
    have := rnd_exact 150 0 (by norm_num)
    norm_num at this ⊢
    exact this
  obtain ⟨δ, h, e⟩ := rnd_rel (150 / 86400)
  rw [abs_le] at h
  norm_num at h
  have e2 : rnd (150 / 86400 : ℝ) = ((150 / 86400 : ℝ) * (1 + δ) * 2 ^ 37) / 2 ^ 37 := by rw [e]; ring
  obtain ⟨D, hD⟩ : ∃ D : ℝ, D = (150 / 86400 : ℝ) * (1 + δ) * 2 ^ 37 := ⟨_, rfl⟩
  have hD1 : |D - 238609294| < 1 / 2 := by
    rw [hD, abs_lt]
    norm_num
    constructor <;> linarith
  have half : ∀ c : ℤ, roundEven (c + D) = c + 238609294 := by
    intro c
    apply roundEven_eq
    push_cast
    rw [show (c : ℝ) + D - (c + 238609294) = D - 238609294 by ring]
    exact hD1
  rw [abs_lt] at hD1
  have h1' : (2 : ℝ) ^ 52 ≤ a := by exact_mod_cast h1
  have h2' : (a : ℝ) + 477218588 ≤ 2 ^ 53 - 1 := by
    have : a + 477218588 ≤ 2 ^ 53 - 1 := by omega
    exact_mod_cast this
  rw [step]
  simp only [e1, e2, ← hD]
  norm_num at h1' h2'
  rw [plusDays_tick (by norm_num; linarith) (by norm_num; linarith), half,
    plusDays_tick (by push_cast; norm_num; linarith) (by push_cast; norm_num; linarith), half, tick_inj]
  ring

theorem stepToEpoch_self (e : ℝ) : stepToEpoch e e = e := by
  simp [stepToEpoch, numSteps, span, rnd_zero]

/-- the other spacecraft follows exactly -/
theorem pace_follow {a : ℤ} (h1 : 2 ^ 52 + 1 ≤ a) (h2 : a + 477218590 < 2 ^ 53) :
    stepToEpoch (tick (a + 477218588)) (tick a) = tick (a + 477218588) := by
  obtain ⟨c, hc, -, -, -, hex⟩ := single_step (a := a) (b := a + 477218588) ⟨h1, by omega⟩ ⟨by omega, by omega⟩
    (by omega) (by norm_num)
  rw [hc, hex (by rw [show a + 477218588 - a = 2 * 238609294 by ring]; exact even_two_mul _)]

variable {ι : Type} [DecidableEq ι]

/-- the two spacecraft of a loop: each tracks the other or nothing -/
structure Pair (tracks : ι → Option ι) (chase target : ι) : Prop where
  differ : chase ≠ target
  chase_tracks : tracks chase = none ∨ tracks chase = some target
  target_tracks : tracks target = none ∨ tracks target = some chase

/-- updating the attitude of the target when the clocks agree changes no clock -/
theorem Pair.quiet {tracks : ι → Option ι} {chase target : ι} (h : Pair tracks chase target) (depth : ℕ) {w : ι → ℝ}
    (hw : w target = w chase) : updateAttitude tracks (depth + 1) target w = some w := by
  rw [updateAttitude]
  rcases h.target_tracks with ht | ht <;> rw [ht]
  simp only [ne_eq, hw, not_true, if_false]

/-- an iteration of the loop -/
theorem Pair.iteration {tracks : ι → Option ι} {chase target : ι} (h : Pair tracks chase target) (depth : ℕ)
    {w : ι → ℝ} {a : ℤ} (h1 : 2 ^ 52 + 1 ≤ a) (h2 : a + 477218590 < 2 ^ 53) (hc : w chase = tick a)
    (ht : w target = tick a) : ∃ w1 w2, spacecraftStep tracks (depth + 2) chase w = some w1 ∧
      spacecraftStepToEpoch tracks (depth + 2) target (w1 chase) w1 = some w2 ∧
      w2 chase = tick (a + 477218588) ∧ w2 target = tick (a + 477218588) ∧
      ∀ i, i ≠ chase → i ≠ target → w2 i = w i := by
  obtain ⟨T, hT⟩ : ∃ T, T = tick (a + 477218588) := ⟨_, rfl⟩
  have hs : step 300 (w chase) = T := by rw [hc, pace_step (by omega) (by omega), hT]
  have hf : stepToEpoch T (tick a) = T := by rw [hT]; exact pace_follow h1 h2
  have hne : tick a ≠ T := by rw [hT, Ne, tick_inj]; omega
  have hd := h.differ
  rw [← hT]
  have finish : ∀ w1 : ι → ℝ, w1 chase = T → (w1 target = tick a ∨ w1 target = T) →
      (∀ i, i ≠ chase → i ≠ target → w1 i = w i) →
      ∃ w2, spacecraftStepToEpoch tracks (depth + 2) target (w1 chase) w1 = some w2 ∧ w2 chase = T ∧ w2 target = T ∧
      ∀ i, i ≠ chase → i ≠ target → w2 i = w i := by
    intro w1 hw1 hw2 hw3
    have e : stepToEpoch T (w1 target) = T := by
      rcases hw2 with e | e
      · rw [e, hf]
      · rw [e, stepToEpoch_self]
    refine ⟨Function.update w1 target T, ?_, by rw [Function.update_of_ne hd, hw1], Function.update_self .., ?_⟩
    · rw [spacecraftStepToEpoch, hw1, e]
      apply h.quiet
      rw [Function.update_self, Function.update_of_ne hd, hw1]
    · intro i hi hj
      rw [Function.update_of_ne hj, hw3 i hi hj]
  rcases h.chase_tracks with hn | hn
  · obtain ⟨w2, k⟩ := finish (Function.update w chase T) (Function.update_self ..)
      (.inl (by rw [Function.update_of_ne hd.symm, ht])) (fun i hi _ => Function.update_of_ne hi ..)
    refine ⟨Function.update w chase T, w2, ?_, k⟩
    rw [spacecraftStep, hs, updateAttitude, hn]
  · obtain ⟨w1, hw1⟩ : ∃ w1, w1 = Function.update (Function.update w chase T) target T := ⟨_, rfl⟩
    obtain ⟨w2, k⟩ := finish w1 (by rw [hw1, Function.update_of_ne hd, Function.update_self])
      (.inr (by rw [hw1, Function.update_self]))
      (fun i hi hj => by rw [hw1, Function.update_of_ne hj, Function.update_of_ne hi])
    refine ⟨w1, w2, ?_, k⟩
    rw [spacecraftStep, hs, updateAttitude, hn]
    simp only [Function.update_self, Function.update_of_ne hd.symm, ht]
    rw [if_pos hne, hf, ← hw1]
    apply h.quiet
    rw [hw1, Function.update_self, Function.update_of_ne hd, Function.update_self]

/-- the whole loop, `n` being the least number of iterations after which the stop epoch is reached -/
theorem Pair.loop {tracks : ι → Option ι} {chase target : ι} (h : Pair tracks chase target) (depth : ℕ) {b : ℤ}
    (hb : b + 2 ^ 37 < 2 ^ 53) (n : ℕ) : ∀ (fuel : ℕ) (a : ℤ) (w : ι → ℝ), 2 ^ 52 + 1 ≤ a → w chase = tick a →
    w target = tick a → n ≤ fuel → b ≤ a + n * 477218588 → (0 < n → a + (n - 1) * 477218588 < b) →
    ∃ w', simulate tracks (depth + 2) chase target (tick b) fuel w = some (n, w') ∧
      w' chase = tick (a + n * 477218588) ∧ w' target = tick (a + n * 477218588) ∧
      ∀ i, i ≠ chase → i ≠ target → w' i = w i := by
  have hlt : ∀ c d : ℤ, tick c < tick d ↔ c < d := by
    intro c d
    unfold tick
    rw [div_lt_div_iff_of_pos_right (by positivity)]
    exact Int.cast_lt
  induction n with
  | zero =>
    intro fuel a w _ hc ht _ hle _
    refine ⟨w, ?_, by rw [hc]; congr 1; push_cast; ring, by rw [ht]; congr 1; push_cast; ring, fun _ _ _ => rfl⟩
    rw [simulate.eq_def]
    dsimp only
    rw [if_neg]
    rw [hc, hlt]
    push_cast at hle
    omega
  | succ n ih =>
    intro fuel a w ha hc ht hfuel hle hmin
    have hmin' := hmin (by omega)
    push_cast at hle hmin'
    have hn : (0 : ℤ) ≤ n * 477218588 := by positivity
    have hab : a < b := by linarith
    obtain ⟨fuel, rfl⟩ : ∃ k, fuel = k + 1 := ⟨fuel - 1, by omega⟩
    obtain ⟨w1, w2, k1, k2, k3, k4, k5⟩ := h.iteration depth ha (by omega) hc ht
    obtain ⟨w', l1, l2, l3, l4⟩ := ih fuel (a + 477218588) w2 (by omega) k3 k4 (by omega) (by linarith)
      (fun _ => by linarith)
    refine ⟨w', ?_, by rw [l2]; congr 1; push_cast; ring, by rw [l3]; congr 1; push_cast; ring,
      fun i hi hj => by rw [l4 i hi hj, k5 i hi hj]⟩
    rw [simulate, if_pos (by rw [hc, hlt]; exact hab)]
    simp only [k1, k2, l1, Option.map_some]

end F64

variable {ι : Type} [DecidableEq ι]

/-! ## C118 -/

/-- Every `step` of a new propagator advances the clock by the same double, less than 0.3 microseconds short of five
minutes. -/
theorem C118_pace (e : ℝ) (he : Spec.IsEpoch e) :
    step 300 e = e + pace ∧ 300 - 3e-7 < pace * 86400 ∧ pace * 86400 < 300 - 2.7e-7 := by
  obtain ⟨a, rfl, ha1, ha2⟩ := epoch_tick he
  refine ⟨?_, by norm_num [pace, Spec.resolution], by norm_num [pace, Spec.resolution]⟩
  rw [pace_step (by omega) (by omega)]
  have := tick_pace a 1
  push_cast at this
  linarith

/-- The loop of the examples, from equal clocks to any later epoch: it ends as soon as the epoch is reached, and the
clocks of the two spacecraft are then exactly equal, whether or not they track each other.  No other clock moves. -/
theorem C118_synchronised (tracks : ι → Option ι) (chase target : ι) (h : Pair tracks chase target) (depth fuel n : ℕ)
    (hdepth : 2 ≤ depth) (w : ι → ℝ) (hw : w target = w chase) (he : Spec.IsEpoch (w chase)) (stop : ℝ)
    (hs : Spec.IsEpoch stop) (hn : IsLeast {k : ℕ | stop ≤ w chase + k * pace} n) (hfuel : n ≤ fuel) :
    ∃ w', simulate tracks depth chase target stop fuel w = some (n, w') ∧
      w' chase = w chase + n * pace ∧ w' target = w' chase ∧ ∀ i, i ≠ chase → i ≠ target → w' i = w i := by
  obtain ⟨a, ha, ha1, ha2⟩ := epoch_tick he
  obtain ⟨b, rfl, hb1, hb2⟩ := epoch_tick hs
  obtain ⟨depth, rfl⟩ : ∃ k, depth = k + 2 := ⟨depth - 2, by omega⟩
  have hle : ∀ k : ℕ, tick b ≤ w chase + k * pace ↔ b ≤ a + k * 477218588 := by
    intro k
    rw [ha, ← tick_pace, tick, tick, div_le_div_iff_of_pos_right (by positivity)]
    exact Int.cast_le
  have hn1 := (hle n).mp hn.1
  obtain ⟨w', l1, l2, l3, l4⟩ := h.loop depth (b := b) (by omega) n fuel a w (by omega) ha (hw.trans ha) hfuel hn1 (by
    intro hpos
    by_contra hcon
    have h2 := hn.2 (show tick b ≤ w chase + ((n - 1 : ℕ) : ℝ) * pace from (hle _).mpr (by
      rw [Nat.cast_sub hpos]; push_cast; linarith))
    omega)
  refine ⟨w', l1, ?_, by rw [l2, l3], l4⟩
  rw [l2, tick_pace, ha]

/-! ## C119 -/

/-- The loop of the examples over any whole number of days makes one step more than 288 a day and ends about five
minutes after the stop epoch, for every start. -/
theorem C119_violated (tracks : ι → Option ι) (chase target : ι) (h : Pair tracks chase target) (depth fuel d : ℕ)
    (hdepth : 2 ≤ depth) (w : ι → ℝ) (hw : w target = w chase) (he : Spec.IsEpoch (w chase)) (hd : 0 < d)
    (hs : w chase + d < 65535) (hfuel : 288 * d + 1 ≤ fuel) :
    plusDays (w chase) d = w chase + d ∧
    ∃ w', simulate tracks depth chase target (plusDays (w chase) d) fuel w = some (288 * d + 1, w') ∧
      w' chase = w chase + d + pace - 128 * d * Spec.resolution ∧ w' target = w' chase ∧
      w' chase ≠ plusDays (w chase) d := by
  obtain ⟨a, ha, ha1, ha2⟩ := epoch_tick he
  have hsum : w chase + d = tick (a + d * 2 ^ 37) := by rw [ha]; unfold tick; push_cast; ring
  have hd1 : (d : ℝ) < 32767 := by linarith [he.2.1]
  have hd2 : d < 32767 := by exact_mod_cast hd1
  have hlt : a + d * 2 ^ 37 + 2 ^ 37 < 2 ^ 53 := by
    rw [hsum, tick, div_lt_iff₀ (by positivity)] at hs
    norm_num at hs
    have : a + d * 137438953472 < (9007061815787520 : ℤ) := by exact_mod_cast hs
    omega
  have hbin : Spec.IsBinary64 (w chase + d) := by
    rw [hsum]
    exact tick_binary64 ⟨by omega, by omega⟩
  have hplus : plusDays (w chase) d = w chase + d := (isDouble_iff _).mpr hbin
  have hep : Spec.IsEpoch (w chase + d) := ⟨hbin, by linarith [he.2.1, (Nat.cast_nonneg d : (0 : ℝ) ≤ d)], hs⟩
  have hle : ∀ k : ℕ, w chase + d ≤ w chase + k * pace ↔ d * 2 ^ 37 ≤ k * 477218588 := by
    intro k
    rw [add_le_add_iff_left, pace, Spec.resolution, mul_one_div, ← mul_div_assoc, le_div_iff₀ (by positivity)]
    exact_mod_cast Iff.rfl
  obtain ⟨w', l1, l2, l3, -⟩ := C118_synchronised tracks chase target h depth fuel (288 * d + 1) hdepth w hw he
    (w chase + d) hep ⟨(hle _).mpr (by omega), fun k hk => by
      have := (hle k).mp hk
      omega⟩ hfuel
  have hend : w' chase = w chase + d + pace - 128 * d * Spec.resolution := by
    rw [l2, pace, Spec.resolution]; push_cast; ring
  refine ⟨hplus, w', by rw [hplus]; exact l1, hend, l3, ?_⟩
  rw [hend, hplus, pace, Spec.resolution]
  intro hcon
  have : (128 * d : ℝ) = 477218588 := by
    have h1 : (477218588 : ℝ) * (1 / 2 ^ 37) = 128 * d * (1 / 2 ^ 37) := by linarith
    exact (mul_right_cancel₀ (by positivity) h1).symm
  linarith

/-- the loop of the examples: a day from 20 December 2022 takes 289 steps, whether or not the spacecraft track each
other -/
example (tracks : Fin 2 → Option (Fin 2)) (h0 : tracks 0 = none ∨ tracks 0 = some 1)
    (h1 : tracks 1 = none ∨ tracks 1 = some 0) :
    ∃ w', simulate tracks 10 0 1 (plusDays 59933 1) 1000 (fun _ => 59933) = some (289, w') ∧ w' 0 ≠ plusDays 59933 1 := by
  have he : Spec.IsEpoch 59933 := by
    refine ⟨⟨59933, 0, by norm_num, by norm_num⟩, by norm_num, by norm_num⟩
  obtain ⟨-, w', k1, -, -, k2⟩ := C119_violated tracks 0 1 ⟨by decide, h0, h1⟩ 10 1000 1 (by norm_num) (fun _ => 59933) rfl he
    (by norm_num) (by norm_num) (by norm_num)
  rw [Nat.cast_one] at k1 k2
  exact ⟨w', k1, k2⟩

/-- the hypotheses of C118 hold for the same loop -/
example : Spec.IsEpoch 59933 ∧ Spec.IsEpoch 59934 ∧ IsLeast {k : ℕ | (59934 : ℝ) ≤ 59933 + k * pace} 289 := by
  refine ⟨⟨⟨59933, 0, by norm_num, by norm_num⟩, by norm_num, by norm_num⟩,
    ⟨⟨59934, 0, by norm_num, by norm_num⟩, by norm_num, by norm_num⟩, ?_, fun k hk => ?_⟩
  · show (59934 : ℝ) ≤ 59933 + ((289 : ℕ) : ℝ) * pace
    norm_num [pace, Spec.resolution]
  · by_contra hcon
    have hk1 : (k : ℝ) ≤ 288 := by
      have : k ≤ 288 := by omega
      exact_mod_cast this
    have hk2 : (59934 : ℝ) ≤ 59933 + k * pace := hk
    rw [pace, Spec.resolution] at hk2
    norm_num at hk2
    linarith

end Openspace
