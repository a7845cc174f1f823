import Verif.Lemmas.Double
import Mathlib.Tactic.FinCases
import Mathlib.Data.Fin.VecNotation

/-!
# C97 to C99: clocks in double precision

The model of double precision is `Verif.Model.Double`; `Spec.IsBinary64` says what a double is.
-/

namespace Openspace

open F64

/-! ## the rounding of the model is that of IEEE 754 -/

/-- rounding gives a double, none is nearer, and doubles are left as they are -/
theorem F64.rnd_spec (x : ℝ) :
    Spec.IsBinary64 (rnd x) ∧ (∀ y, Spec.IsBinary64 y → |rnd x - x| ≤ |y - x|) ∧ (Spec.IsBinary64 x → rnd x = x) :=
  ⟨rnd_binary64 x, fun _ hy => rnd_nearest x hy, (isDouble_iff x).mpr⟩

/-- epochs are ticks -/
theorem F64.epoch_tick {x : ℝ} (hx : Spec.IsEpoch x) : ∃ a, x = tick a ∧ Inside (2 ^ 37) a := by
  obtain ⟨h, h1, h2⟩ := hx
  obtain ⟨a, ha⟩ := isDouble_tick (by norm_num; linarith) (by norm_num; linarith) ((isDouble_iff x).mpr h)
  refine ⟨a, ha, ?_⟩
  rw [ha, tick] at h1 h2
  rw [le_div_iff₀ (by positivity)] at h1
  rw [div_lt_iff₀ (by positivity)] at h2
  norm_num at h1 h2
  have h1' : (4503737066323968 : ℤ) ≤ a := by exact_mod_cast h1
  have h2' : a < (9007061815787520 : ℤ) := by exact_mod_cast h2
  exact ⟨by omega, by omega⟩

theorem F64.tick_dist (a b : ℤ) : |tick a - tick b| = |a - b| * Spec.resolution := by
  rw [tick_sub, tick, abs_div, abs_of_pos (by positivity : (0 : ℝ) < 2 ^ 37), Spec.resolution]
  push_cast; ring

theorem F64.tick_binary64 {a : ℤ} (h : Inside 0 a) : Spec.IsBinary64 (tick a) := by
  rw [← isDouble_iff]
  obtain ⟨h1, h2⟩ := h
  exact tick_isDouble (by rw [abs_lt]; omega)

/-- the steps of a span between epochs -/
theorem F64.steps_le {a b : ℤ} (ha : Inside (2 ^ 37) a) (hb : Inside (2 ^ 37) b) :
    numSteps (tick b) (tick a) ≤ 9437190 := by
  obtain ⟨h1, h2⟩ := ha
  obtain ⟨h3, h4⟩ := hb
  have := numSteps_le (a := a) (b := b) 32767 (by norm_num) (by rw [abs_le]; push_cast; omega) (by rw [abs_lt]; omega)
  omega

/-! ## C97 -/

/-- Stepping to an epoch lands within one tick for every step of the integrator, and two more.  The full property, that
it lands on the epoch, is false: see `C97_violated`. -/
theorem C97_lands_partial (t e : ℝ) (ht : Spec.IsEpoch t) (he : Spec.IsEpoch e) :
    Spec.IsBinary64 (stepToEpoch t e) ∧ |stepToEpoch t e - t| ≤ (numSteps t e + 2) * Spec.resolution := by
  obtain ⟨a, rfl, ha⟩ := epoch_tick he
  obtain ⟨b, rfl, hb⟩ := epoch_tick ht
  have hle := steps_le ha hb
  obtain ⟨N, hN⟩ : ∃ N, N = numSteps (tick b) (tick a) := ⟨_, rfl⟩
  rw [← hN] at hle ⊢
  obtain ⟨ha1, ha2⟩ := ha
  obtain ⟨hb1, hb2⟩ := hb
  obtain ⟨c, hc, hcn, -⟩ := long_step N hN.symm ⟨by omega, by omega⟩ ⟨by omega, by omega⟩
  rw [hc]
  constructor
  · apply tick_binary64
    rw [abs_le] at hcn
    exact ⟨by omega, by omega⟩
  · rw [tick_dist]
    have : ((|c - b| : ℤ) : ℝ) ≤ N + 2 := by exact_mod_cast hcn
    have hr : 0 ≤ Spec.resolution := by unfold Spec.resolution; positivity
    gcongr

/-- the number of steps: one for every five minutes, rounded up -/
theorem C97_steps (t e : ℝ) (ht : Spec.IsEpoch t) (he : Spec.IsEpoch e) (D : ℕ) (hD : |t - e| ≤ D) :
    numSteps t e ≤ 288 * D + 1 := by
  obtain ⟨a, rfl, ha⟩ := epoch_tick he
  obtain ⟨b, rfl, hb⟩ := epoch_tick ht
  obtain ⟨ha1, ha2⟩ := ha
  obtain ⟨hb1, hb2⟩ := hb
  by_cases hD' : D < 2 ^ 16
  · apply numSteps_le D hD' _ (by rw [abs_lt]; omega)
    rw [tick_dist, Spec.resolution, mul_one_div, div_le_iff₀ (by positivity)] at hD
    exact_mod_cast hD
  · have := F64.steps_le ⟨ha1, ha2⟩ ⟨hb1, hb2⟩
    omega

/-- Steps of less than five minutes land on the epoch or on a neighbouring double; they land on every epoch whose last
bit is zero. -/
theorem C97_short_partial (t e : ℝ) (ht : Spec.IsEpoch t) (he : Spec.IsEpoch e) (hd : |t - e| ≤ 299.9999 / 86400) :
    |stepToEpoch t e - t| ≤ Spec.resolution ∧
      ((∃ k : ℤ, t = k * (2 * Spec.resolution)) → stepToEpoch t e = t) := by
  obtain ⟨a, rfl, ha⟩ := epoch_tick he
  obtain ⟨b, rfl, hb⟩ := epoch_tick ht
  obtain ⟨ha1, ha2⟩ := ha
  obtain ⟨hb1, hb2⟩ := hb
  have hr : 0 < Spec.resolution := by unfold Spec.resolution; positivity
  by_cases hne : b = a
  · subst hne
    have : stepToEpoch (tick b) (tick b) = tick b := by
      simp [stepToEpoch, numSteps, span, rnd_zero]
    rw [this]
    exact ⟨by simpa using hr.le, fun _ => rfl⟩
  · have hd' : |b - a| ≤ 477218588 := by
      rw [tick_dist, Spec.resolution] at hd
      have : ((|b - a| : ℤ) : ℝ) ≤ 477218588 := by norm_num at hd ⊢; linarith
      exact_mod_cast this
    obtain ⟨c, hc, hc1, hev, -⟩ := single_step (a := a) (b := b) ⟨by omega, by omega⟩ ⟨by omega, by omega⟩ hne hd'
    rw [hc]
    constructor
    · rw [tick_dist]
      have : ((|c - b| : ℤ) : ℝ) ≤ 1 := by exact_mod_cast hc1
      nlinarith
    · rintro ⟨k, hk⟩
      have : tick b = tick (2 * k) := by rw [hk, tick, Spec.resolution]; push_cast; ring
      rw [tick_inj] at this
      rw [hev (by rw [this]; exact even_two_mul k)]

/-- the epoch an hour after 59932.0 (19 December 2022), as `Epoch.plus_days` computes it -/
noncomputable def F64.hourLater : ℝ := plusDays 59932 (rnd (1 / 24))

theorem F64.noon_tick : (59932 : ℝ) = tick (59932 * 2 ^ 37) := by unfold tick; push_cast; ring

theorem F64.hourLater_tick : hourLater = tick (59932 * 2 ^ 37 + 5726623061) := by
  obtain ⟨δ, h, e⟩ := rnd_rel (1 / 24)
  rw [abs_le] at h
  norm_num at h
  have e1 : rnd (1 / 24 : ℝ) = ((1 / 24 : ℝ) * (1 + δ) * 2 ^ 37) / 2 ^ 37 := by rw [e]; ring
  rw [hourLater, e1, noon_tick, plusDays_tick (by norm_num; linarith) (by norm_num; linarith), tick_inj]
  apply roundEven_eq
  rw [abs_lt]
  push_cast
  norm_num
  constructor <;> linarith

/-- Stepping from 59932.0 to an hour later ends at another epoch: five ticks early. -/
theorem C97_violated : Spec.IsEpoch 59932 ∧ Spec.IsEpoch hourLater ∧
    stepToEpoch hourLater 59932 = hourLater - 5 * Spec.resolution ∧ stepToEpoch hourLater 59932 ≠ hourLater := by
  obtain ⟨a, ha⟩ : ∃ a : ℤ, a = 59932 * 2 ^ 37 := ⟨_, rfl⟩
  have hL : hourLater = tick (a + 5726623061) := by rw [hourLater_tick, ha]
  have hE : (59932 : ℝ) = tick a := by rw [ha]; exact noon_tick
  have hend : stepToEpoch hourLater 59932 = tick (a + 5726623056) := by
    have hn : numSteps (tick (a + 5726623061)) (tick a) = 12 := by
      have e0 : tick (a + 5726623061) - tick a = tick 5726623061 := by rw [tick_sub]; congr 1; ring
      have e1 : rnd (tick 5726623061) = tick 5726623061 := tick_isDouble (by norm_num)
      have e2 : tick 5726623061 * 86400 = tick (5726623061 * 86400) := by unfold tick; push_cast; ring
      have e3 : rnd (tick (5726623061 * 86400)) = tick (5726623061 * 86400) := tick_isDouble (by norm_num)
      have e4 : tick (5726623061 * 86400) / 300 = tick (5726623061 * 288) := by unfold tick; push_cast; ring
      have e5 : rnd (tick (5726623061 * 288)) = tick (5726623061 * 288) := tick_isDouble (by norm_num)
      rw [numSteps, span, e0, e1, e2, e3, e4, e5, tick, Nat.ceil_eq_iff (by norm_num)]
      norm_num
    obtain ⟨η, hη, hinc⟩ := increment 5726623061 a (a + 5726623061) (by ring) (by norm_num) 12
    obtain ⟨D, hD⟩ : ∃ D : ℝ, D = ((5726623061 : ℤ) : ℝ) / (2 * 12) * (1 + η) := ⟨_, rfl⟩
    rw [← hD] at hinc
    rw [abs_le] at hη
    have hD1 : |D - 238609294| < 1 / 2 := by
      rw [hD, abs_lt]
      norm_num at hη ⊢
      constructor <;> linarith
    have half : ∀ c : ℤ, roundEven (c + D) = c + 238609294 := by
      intro c
      apply roundEven_eq
      push_cast
      rw [show (c : ℝ) + D - (c + 238609294) = D - 238609294 by ring]
      exact hD1
    rw [abs_lt] at hD1
    have key : ∀ j : ℕ, j ≤ 12 →
        (step (rnd (span (tick (a + 5726623061)) (tick a) / (12 : ℝ))))^[j] (tick a) = tick (a + j * 477218588) := by
      intro j
      induction j with
      | zero => intro _; simp
      | succ j ih =>
        intro hj
        have hjr : (j : ℝ) + 1 ≤ 12 := by exact_mod_cast hj
        have hj0 : (0 : ℝ) ≤ j := j.cast_nonneg
        have har : (a : ℝ) = 59932 * 2 ^ 37 := by rw [ha]; push_cast; ring
        rw [Function.iterate_succ_apply', ih (by omega), step]
        simp only [hinc]
        rw [plusDays_tick (by push_cast; rw [har]; norm_num; linarith) (by push_cast; rw [har]; norm_num; linarith),
          half,
          plusDays_tick (by push_cast; rw [har]; norm_num; linarith) (by push_cast; rw [har]; norm_num; linarith),
          half, tick_inj]
        push_cast; ring
    have := key 12 le_rfl
    rw [hL, hE, stepToEpoch, hn]
    rw [Nat.cast_ofNat, this]
    congr 1
  refine ⟨⟨?_, by norm_num, by norm_num⟩, ⟨?_, ?_, ?_⟩, ?_, ?_⟩
  · rw [hE]; exact tick_binary64 ⟨by rw [ha]; norm_num, by rw [ha]; norm_num⟩
  · rw [hL]; exact tick_binary64 ⟨by rw [ha]; norm_num, by rw [ha]; norm_num⟩
  · rw [hL, ha, tick]; norm_num
  · rw [hL, ha, tick]; norm_num
  · rw [hend, hL, tick, tick, Spec.resolution]; push_cast; ring
  · rw [hend, hL, Ne, tick_inj]; omega

/-- the hypotheses of the bounds are met, by a span of more than one step -/
example : Spec.IsEpoch hourLater ∧ Spec.IsEpoch 59932 ∧ stepToEpoch hourLater 59932 ≠ 59932 := by
  obtain ⟨h1, h2, h3, -⟩ := C97_violated
  refine ⟨h2, h1, ?_⟩
  rw [h3, hourLater_tick, noon_tick, tick, tick, Spec.resolution]
  push_cast; norm_num

/-! ## C98 -/

variable {ι : Type} [DecidableEq ι]

omit [DecidableEq ι] in
theorem F64.epochs_clocks {w : ι → ℝ} (hw : ∀ i, Spec.IsEpoch (w i)) :
    ∃ E : ι → ℤ, w = clocks E ∧ ∀ i, Inside (2 ^ 37) (E i) := by
  choose E hE using fun i => epoch_tick (hw i)
  exact ⟨E, funext fun i => (hE i).1, fun i => (hE i).2⟩

/-- the recursion starting with the clock of `self` near `base` -/
theorem F64.terminates [Fintype ι] (tracks : ι → Option ι) (E : ι → ℤ) (self : ι) (base : ℤ) (D depth : ℕ)
    (hbase : Inside (2 ^ 37) base) (hself : |E self - base| ≤ 288 * (D + 1) + 5)
    (hE : ∀ i, i ≠ self → Inside (2 ^ 37) (E i) ∧ |E i - base| ≤ D * 2 ^ 37) (hD : D < 2 ^ 15)
    (hk : Fintype.card ι * (288 * (D + 1) + 5) ≤ 474999999) (hdepth : 3 * Fintype.card ι + 1 ≤ depth) :
    ∃ w', updateAttitude tracks depth self (clocks E) = some w' := by
  have hpos : 0 < Fintype.card ι := Fintype.card_pos_iff.mpr ⟨self⟩
  obtain ⟨hb1, hb2⟩ := hbase
  apply fresh_phase tracks base D hD hk ⟨by omega, by omega⟩ (Fintype.card ι - 1) depth {self} E self
  · rw [Finset.card_singleton]; omega
  · exact Finset.mem_singleton_self _
  · intro v hv hne
    exact absurd (Finset.mem_singleton.mp hv) hne
  · intro v hv
    rw [Finset.mem_singleton.mp hv, sub_self, abs_zero]; positivity
  · rw [Finset.card_singleton, Nat.cast_one, one_mul]; exact hself
  · intro v hv
    obtain ⟨⟨h1, h2⟩, h3⟩ := hE v fun h => hv (Finset.mem_singleton.mpr h)
    exact ⟨h3, by omega, by omega⟩
  · omega

/-- a bound on the distance of epochs need not exceed the range of epochs -/
theorem F64.clamp {k D : ℕ} (hk : k * (288 * (D + 1) + 5) ≤ 474999999) :
    ∃ D' : ℕ, D' < 2 ^ 15 ∧ k * (288 * (D' + 1) + 5) ≤ 474999999 ∧
      ∀ a b : ℤ, Inside (2 ^ 37) a → Inside (2 ^ 37) b → |a - b| ≤ D * 2 ^ 37 → |a - b| ≤ D' * 2 ^ 37 := by
  by_cases h : D < 2 ^ 15
  · exact ⟨D, h, hk, fun _ _ _ _ h => h⟩
  · obtain ⟨L, hL⟩ : ∃ L : ℕ, L = 32767 := ⟨_, rfl⟩
    refine ⟨L, by omega, le_trans (Nat.mul_le_mul_left k (by omega)) hk, ?_⟩
    rintro a b ⟨h1, h2⟩ ⟨h3, h4⟩ -
    rw [abs_le]; omega

theorem F64.dist_days {a b : ℤ} {D : ℕ} (h : |tick a - tick b| ≤ D) : |a - b| ≤ D * 2 ^ 37 := by
  rw [tick_dist, Spec.resolution, mul_one_div, div_le_iff₀ (by positivity)] at h
  exact_mod_cast h

/-- Updating the attitude terminates whatever the spacecraft track, although clocks are not set exactly: `k`
spacecraft whose clocks differ by at most `D` days recurse at most `3 k + 1` deep. -/
theorem C98_update_terminates [Fintype ι] (tracks : ι → Option ι) (w : ι → ℝ) (self : ι) (D depth : ℕ)
    (hw : ∀ i, Spec.IsEpoch (w i)) (hspread : ∀ i j, |w i - w j| ≤ D)
    (hk : Fintype.card ι * (288 * (D + 1) + 5) ≤ 474999999) (hdepth : 3 * Fintype.card ι + 1 ≤ depth) :
    ∃ w', updateAttitude tracks depth self w = some w' := by
  obtain ⟨E, rfl, hE⟩ := epochs_clocks hw
  obtain ⟨D', hD', hk', hcl⟩ := clamp hk
  apply terminates tracks E self (E self) D' depth (hE self) _ _ hD' hk' hdepth
  · rw [sub_self, abs_zero]; positivity
  · exact fun i _ => ⟨hE i, hcl _ _ (hE i) (hE self) (dist_days (hspread i self))⟩

/-- So does stepping a spacecraft to an epoch, if the clocks differ from that epoch by at most `D` days. -/
theorem C98_step_terminates [Fintype ι] (tracks : ι → Option ι) (w : ι → ℝ) (self : ι) (t : ℝ) (D depth : ℕ)
    (hw : ∀ i, Spec.IsEpoch (w i)) (ht : Spec.IsEpoch t) (hspread : ∀ i, |w i - t| ≤ D)
    (hk : Fintype.card ι * (288 * (D + 1) + 5) ≤ 474999999) (hdepth : 3 * Fintype.card ι + 1 ≤ depth) :
    ∃ w', spacecraftStepToEpoch tracks depth self t w = some w' := by
  obtain ⟨E, rfl, hE⟩ := epochs_clocks hw
  obtain ⟨b, rfl, hb⟩ := epoch_tick ht
  obtain ⟨D', hD', hk', hcl⟩ := clamp hk
  have hdist : ∀ i, |E i - b| ≤ D' * 2 ^ 37 := fun i => hcl _ _ (hE i) hb (dist_days (hspread i))
  have hself := hE self
  have hle : numSteps (tick b) (tick (E self)) ≤ 288 * D' + 1 := by
    obtain ⟨h1, h2⟩ := hself
    obtain ⟨h3, h4⟩ := hb
    exact numSteps_le D' (by omega) (by rw [abs_sub_comm]; exact hdist self) (by rw [abs_lt]; omega)
  obtain ⟨N, hN⟩ : ∃ N, N = numSteps (tick b) (tick (E self)) := ⟨_, rfl⟩
  rw [← hN] at hle
  obtain ⟨c, hc, hcn, -⟩ := long_step (a := E self) (b := b) N hN.symm
    (by obtain ⟨h1, h2⟩ := hself; exact ⟨by omega, by omega⟩) (by obtain ⟨h1, h2⟩ := hb; exact ⟨by omega, by omega⟩)
  have e : stepToEpoch (tick b) (clocks E self) = tick c := hc
  rw [spacecraftStepToEpoch, e, update_clocks]
  apply terminates tracks _ self b D' depth hb _ _ hD' hk' hdepth
  · rw [Function.update_self]; omega
  · intro i hi
    rw [Function.update_of_ne hi]
    exact ⟨hE i, hdist i⟩

/-- Two spacecraft that track each other, with clocks an hour apart: the hypotheses are met. -/
example : ∃ (w : Fin 2 → ℝ) (tracks : Fin 2 → Option (Fin 2)), tracks 0 = some 1 ∧ tracks 1 = some 0 ∧ w 0 ≠ w 1 ∧
    (∀ i, Spec.IsEpoch (w i)) ∧ (∀ i j, |w i - w j| ≤ (1 : ℕ)) ∧
    Fintype.card (Fin 2) * (288 * (1 + 1) + 5) ≤ 474999999 := by
  obtain ⟨h1, h2, -, -⟩ := C97_violated
  have hd : hourLater = 59932 + 5726623061 / 2 ^ 37 := by rw [hourLater_tick, tick]; push_cast; ring
  refine ⟨![hourLater, 59932], ![some 1, some 0], rfl, rfl, ?_, ?_, ?_, by simp⟩
  · simp only [Matrix.cons_val_zero, Matrix.cons_val_one]
    rw [hd]; norm_num
  · intro i; fin_cases i
    · exact h2
    · exact h1
  · intro i j
    fin_cases i <;> fin_cases j <;> simp [hd] <;> norm_num

/-- fifty spacecraft may have any epochs, a thousand may be spread over four years -/
example : 50 * (288 * (32766 + 1) + 5) ≤ 474999999 ∧ 1000 * (288 * (1461 + 1) + 5) ≤ 474999999 := by norm_num

/-! ## C99 -/

/-- The clock of a tracked spacecraft that tracks nothing itself is set to that of the tracker up to one tick for every
step of the integrator, and two more.  The full property, that the clocks are equal, is false: see `C99_violated`. -/
theorem C99_synchronised_partial (tracks : ι → Option ι) (w w' : ι → ℝ) (self t : ι) (depth : ℕ)
    (hw : ∀ i, Spec.IsEpoch (w i)) (h1 : tracks self = some t) (h2 : tracks t = none)
    (h : updateAttitude tracks depth self w = some w') :
    w' self = w self ∧ |w' t - w' self| ≤ (numSteps (w self) (w t) + 2) * Spec.resolution := by
  have hne : self ≠ t := by
    rintro rfl
    rw [h1] at h2; exact absurd h2 (by simp)
  have hr : 0 ≤ Spec.resolution := by unfold Spec.resolution; positivity
  match depth with
  | 0 => simp [updateAttitude] at h
  | depth + 1 =>
    rw [updateAttitude, h1] at h
    simp only at h
    by_cases hc : w t ≠ w self
    · rw [if_pos hc] at h
      match depth with
      | 0 => simp [updateAttitude] at h
      | depth + 1 =>
        rw [updateAttitude, h2] at h
        simp only [Option.some.injEq] at h
        subst h
        rw [Function.update_of_ne hne, Function.update_self]
        exact ⟨rfl, (C97_lands_partial _ _ (hw self) (hw t)).2⟩
    · rw [if_neg hc] at h
      simp only [Option.some.injEq] at h
      subst h
      rw [not_not] at hc
      rw [hc, sub_self, abs_zero]
      exact ⟨rfl, by positivity⟩

/-- A clock that reads an even number of ticks reads an even number of ticks after every step to an epoch.  So it is
never synchronised with one that reads an odd number: no update of the tracker makes the clocks equal. -/
theorem C99_violated (tracks : ι → Option ι) (w w' : ι → ℝ) (self t : ι) (depth : ℕ)
    (hw : ∀ i, Spec.IsEpoch (w i)) (h1 : tracks self = some t) (h2 : tracks t = none)
    (hodd : ∃ k : ℤ, w self = (2 * k + 1) * Spec.resolution) (heven : ∃ k : ℤ, w t = 2 * k * Spec.resolution)
    (h : updateAttitude tracks depth self w = some w') : w' t ≠ w' self := by
  have hne : self ≠ t := by
    rintro rfl
    rw [h1] at h2; exact absurd h2 (by simp)
  obtain ⟨k, hk⟩ := hodd
  obtain ⟨l, hl⟩ := heven
  have ek : w self = tick (2 * k + 1) := by rw [hk, tick, Spec.resolution]; push_cast; ring
  have el : w t = tick (2 * l) := by rw [hl, tick, Spec.resolution]; push_cast; ring
  have hc : w t ≠ w self := by rw [ek, el, Ne, tick_inj]; omega
  match depth with
  | 0 => simp [updateAttitude] at h
  | depth + 1 =>
    rw [updateAttitude, h1] at h
    simp only at h
    rw [if_pos hc] at h
    match depth with
    | 0 => simp [updateAttitude] at h
    | depth + 1 =>
      rw [updateAttitude, h2] at h
      simp only [Option.some.injEq] at h
      subst h
      rw [Function.update_of_ne hne, Function.update_self, ek, el]
      obtain ⟨a, ha, ha'⟩ := epoch_tick (hw t)
      obtain ⟨b, hb, hb'⟩ := epoch_tick (hw self)
      rw [el, tick_inj] at ha
      rw [ek, tick_inj] at hb
      rw [← ha] at ha'
      rw [← hb] at hb'
      have hle := steps_le ha' hb'
      obtain ⟨N, hN⟩ : ∃ N, N = numSteps (tick (2 * k + 1)) (tick (2 * l)) := ⟨_, rfl⟩
      rw [← hN] at hle
      obtain ⟨c, hc, -, hpar⟩ := long_step (a := 2 * l) (b := 2 * k + 1) N hN.symm
        (by obtain ⟨h1, h2⟩ := ha'; exact ⟨by omega, by omega⟩)
        (by obtain ⟨h1, h2⟩ := hb'; exact ⟨by omega, by omega⟩)
      have := hpar (even_two_mul l)
      rw [Int.even_iff] at this
      rw [hc, Ne, tick_inj]
      omega

/-- a tracker that starts an hour after its target is never synchronised with it -/
example : ∃ w' : Fin 2 → ℝ,
    updateAttitude ![some 1, none] 7 (0 : Fin 2) ![hourLater, 59932] = some w' ∧ w' 1 ≠ w' 0 := by
  obtain ⟨h1, h2, -, -⟩ := C97_violated
  have hd : hourLater = 59932 + 5726623061 / 2 ^ 37 := by rw [hourLater_tick, tick]; push_cast; ring
  have hw : ∀ i : Fin 2, Spec.IsEpoch ((![hourLater, 59932] : Fin 2 → ℝ) i) := by
    intro i; fin_cases i
    · exact h2
    · exact h1
  obtain ⟨w', hw'⟩ := C98_update_terminates ![some 1, none] ![hourLater, 59932] (0 : Fin 2) 1 7 hw
    (by intro i j; fin_cases i <;> fin_cases j <;> simp [hd] <;> norm_num) (by simp) (by simp)
  refine ⟨w', hw', C99_violated _ _ _ 0 1 7 hw rfl rfl ⟨(59932 * 2 ^ 37 + 5726623060) / 2, ?_⟩
    ⟨59932 * 2 ^ 36, ?_⟩ hw'⟩
  · simp only [Matrix.cons_val_zero, Spec.resolution, hd]; norm_num
  · simp only [Matrix.cons_val_one, Spec.resolution]; norm_num

end Openspace
