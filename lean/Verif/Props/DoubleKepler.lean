import Verif.Lemmas.DoubleKepler

/-!
# Property C101: the solver of Kepler's equation in double precision

`F64.eaFromMaE lib fuel M e` is `EA.from_ma_e(M, e)` with every operation rounded to the nearest double, run for at most
`fuel` iterations.  C16 and C17 are about exact arithmetic, where Newton's method converges; with rounding the distance of
successive iterates need not go to zero, and the loop has no other exit.
-/

namespace Openspace

open Real

/-- The loop ends, without an exception, for mean anomalies within a turn of zero and eccentricities up to 0.9.  The
result solves Kepler's equation, modulo full turns, up to 4e-14, and is within 4e-13 of the exact solution. -/
theorem C101_rounded (lib : F64.Libm) (hlib : Spec.Accurate lib) (M e : ℝ) (he : 0 ≤ e) (he' : e ≤ 0.9)
    (hM : |M| ≤ 2 * π) :
    ∃ E n, (∀ fuel, n ≤ fuel → F64.eaFromMaE lib fuel M e = .ok E) ∧
      ∃ k : ℤ, |E - e * sin E - (M + 2 * π * k)| ≤ 4e-14 ∧
        ∃! Es : ℝ, Es - e * sin Es = M + 2 * π * k ∧ |E - Es| ≤ 4e-13 := by
  have he9 : e ≤ 9 / 10 := by norm_num at he' ⊢; linarith
  have he1 : e < 1 := by linarith
  have hu := F64.u_pos
  have hu' := F64.u_small
  norm_num at hu'
  obtain ⟨range, n, hn⟩ := F64.rounded_all hlib he he9 hM
  obtain ⟨E, hE⟩ := F64.keplerLoop_returns hlib he he9 (F64.stops_of_le hn)
  obtain ⟨m, hm1, hm2⟩ := F64.keplerLoop_ok hlib he he9 (hE (n + 1) le_rfl)
  have hres : |kepler e E - M| ≤ 2.5e-14 := by
    rw [hm1, Function.iterate_succ_apply']
    rw [Function.iterate_succ_apply'] at hm2
    exact F64.rounded_residual hlib he he9 (range m).2 (range m).1 hm2
  have hE7 : |E| ≤ 7 := by rw [hm1]; exact (range (m + 1)).1
  obtain ⟨k, hk⟩ : ∃ k : ℤ, |(if E < 0 then F64.rnd (E + F64.rnd (2 * F64.pi)) else E) - (E + 2 * π * k)| ≤ 5e-15 := by
    by_cases h : E < 0
    · refine ⟨1, ?_⟩
      rw [if_pos h]
      push_cast
      have hpi' := pi_lt_four
      have hpi := pi_pos
      have p1 := F64.pi_near
      have p2 := F64.rnd_u (2 * F64.pi)
      obtain ⟨q, hq⟩ : ∃ q, q = F64.rnd (2 * F64.pi) := ⟨_, rfl⟩
      rw [← hq] at p2 ⊢
      have p3 := F64.rnd_u (E + q)
      have p4 : |2 * F64.pi| ≤ 9 := by
        rw [abs_le] at p1 ⊢
        constructor <;> linarith [p1.1, p1.2]
      have p5 : |q - 2 * π| ≤ 17 * F64.u := by
        have : F64.u * |2 * F64.pi| ≤ F64.u * 9 := by gcongr
        rw [abs_le] at p1 p2 ⊢
        constructor <;> linarith [p1.1, p1.2, p2.1, p2.2]
      have p6 : |E + q| ≤ 9 := by
        rw [abs_le] at p5 hE7 ⊢
        constructor <;> linarith [p5.1, p5.2, hE7.1, hE7.2]
      have p7 : F64.u * |E + q| ≤ F64.u * 9 := by gcongr
      rw [abs_le] at p3 p5 ⊢
      norm_num
      constructor <;> linarith [p3.1, p3.2, p5.1, p5.2]
    · exact ⟨0, by rw [if_neg h]; norm_num⟩
  obtain ⟨E', hE'⟩ : ∃ E', E' = (if E < 0 then F64.rnd (E + F64.rnd (2 * F64.pi)) else E) := ⟨_, rfl⟩
  rw [← hE'] at hk
  have hres' : |E' - e * sin E' - (M + 2 * π * k)| ≤ 4e-14 := by
    have h1 := kepler_lipschitz he he1 E' (E + 2 * π * k)
    have h2 : kepler e (E + 2 * π * k) = kepler e E + 2 * π * k := by
      unfold kepler; rw [sin_turn]; ring
    rw [h2] at h1
    have h3 : E' - e * sin E' - (M + 2 * π * k) = (kepler e E' - (kepler e E + 2 * π * k)) + (kepler e E - M) := by
      unfold kepler; ring
    rw [h3]
    refine (abs_add_le _ _).trans ?_
    norm_num at hres hk ⊢
    linarith
  refine ⟨E', n + 1, fun fuel hf => ?_, k, hres', ?_⟩
  · rw [F64.eaFromMaE, hE fuel hf, hE']; rfl
  · obtain ⟨Es, hEs, _, _⟩ := kepler_exists he he1 (M + 2 * π * k)
    refine ⟨Es, ⟨hEs, ?_⟩, ?_⟩
    · have := kepler_expand he he1 E' Es
      rw [hEs] at this
      unfold kepler at this
      norm_num at hres' ⊢
      nlinarith [abs_nonneg (E' - Es)]
    · rintro y ⟨hy, _⟩
      exact kepler_injective he he1 (by rw [hEs]; exact hy)

/-- correctly rounded functions are accurate enough -/
example : Spec.Accurate ⟨fun x => F64.rnd (sin x), fun x => F64.rnd (cos x), fun y x => F64.rnd (pyAtan2 y x),
    fun x => F64.rnd (arcsin x), fun x y => F64.rnd (x ^ y)⟩ := by
  have key : ∀ y : ℝ, |y| ≤ 1 → |F64.rnd y - y| ≤ 1 / 2 ^ 52 := by
    intro y hy
    have h := F64.rnd_u y
    have hu := F64.u_pos
    have h2 : (1 : ℝ) / 2 ^ 52 = 2 * F64.u := by norm_num [F64.u]
    rw [h2]
    refine h.trans ?_
    nlinarith
  exact ⟨fun x => key _ (abs_sin_le_one x), fun x => key _ (abs_cos_le_one x)⟩

/-- a Molniya orbit -/
example (lib : F64.Libm) (hlib : Spec.Accurate lib) :
    ∃ E n, ∀ fuel, n ≤ fuel → F64.eaFromMaE lib fuel 0.3 0.74 = .ok E := by
  have := pi_gt_three
  obtain ⟨E, n, h, -⟩ := C101_rounded lib hlib 0.3 0.74 (by norm_num) (by norm_num)
    (by rw [abs_of_pos (by norm_num)]; linarith)
  exact ⟨E, n, h⟩

end Openspace
