import Verif.Props.DoubleSpherical
import Verif.Lemmas.DoubleFrames
import Verif.Model.DoubleRelative
import Verif.Props.Hill

/-!
# C129: relative propagation in double precision
-/

namespace Openspace

open Real

namespace F64

variable {x y x' y' e e' s s' : ℝ}

theorem Sc.dot6 {a a' b : Vec6} {k s1 s2 s3 s4 s5 s6 t1 t2 t3 t4 t5 t6 : ℝ} (hk : 0 ≤ k) (hk' : k ≤ 4e4)
    (h1 : Sc a'.x a.x k s1) (h2 : Sc a'.y a.y k s2) (h3 : Sc a'.z a.z k s3) (h4 : Sc a'.vx a.vx k s4)
    (h5 : Sc a'.vy a.vy k s5) (h6 : Sc a'.vz a.vz k s6)
    (g1 : |b.x| ≤ t1) (g2 : |b.y| ≤ t2) (g3 : |b.z| ≤ t3) (g4 : |b.vx| ≤ t4) (g5 : |b.vy| ≤ t5) (g6 : |b.vz| ≤ t6) :
    Sc (F64.dot6 a' b) (a.dot b) (k + 6.1) (s1 * t1 + s2 * t2 + s3 * t3 + s4 * t4 + s5 * t5 + s6 * t6) := by
  have m1 := h1.mul (Sc.exact g1) hk hk' le_rfl (by norm_num)
  have m2 := h2.mul (Sc.exact g2) hk hk' le_rfl (by norm_num)
  have m3 := (h3.mul (Sc.exact g3) hk hk' le_rfl (by norm_num)).mono (show _ ≤ k + 0 + 1.01 + 1.001 by linarith)
  have m4 := (h4.mul (Sc.exact g4) hk hk' le_rfl (by norm_num)).mono (show _ ≤ k + 0 + 1.01 + 1.001 + 1.001 by linarith)
  have m5 := (h5.mul (Sc.exact g5) hk hk' le_rfl (by norm_num)).mono
    (show _ ≤ k + 0 + 1.01 + 1.001 + 1.001 + 1.001 by linarith)
  have m6 := (h6.mul (Sc.exact g6) hk hk' le_rfl (by norm_num)).mono
    (show _ ≤ k + 0 + 1.01 + 1.001 + 1.001 + 1.001 + 1.001 by linarith)
  exact (((((m1.add m2 (by linarith) (by norm_num; linarith)).add m3 (by linarith) (by norm_num; linarith)).add m4
    (by linarith) (by norm_num; linarith)).add m5 (by linarith) (by norm_num; linarith)).add m6 (by linarith)
    (by norm_num; linarith)).mono (by linarith)

/-- the mean motion -/
theorem hillRate_near {a : ℝ} (ha : 0 < a) : ∃ n', hillRate a = .ok n' ∧ 0 < n' ∧ Near n' (√(Earth.MU / (a * a * a))) 5.01 := by
  have h1 : Near (rnd (rnd (a * a) * a)) (a * a * a) 2.002 :=
    (((near_rnd (a * a)).mul' (Near.refl a) le_rfl (by norm_num) (by norm_num) (by norm_num)).round' (by norm_num)
      (by norm_num)).mono (by norm_num)
  have h3 : 0 < rnd (rnd (a * a) * a) := rnd_pos (mul_pos (rnd_pos (by positivity)) ha)
  obtain ⟨-, h2⟩ := mu_near.div' h1 (by positivity) (by norm_num) (by norm_num) (by norm_num) (by norm_num)
  have h4 := (h2.round' (by norm_num) (by norm_num)).mono (show _ ≤ 4.006 by norm_num)
  have hpos : 0 < mu / rnd (rnd (a * a) * a) := div_pos mu_pos' h3
  have h5 := ((near_sqrt h4 (by have := Openspace.mu_pos; positivity) (rnd_pos hpos).le).round' (by norm_num) (by norm_num)).mono
    (show _ ≤ 5.01 by norm_num)
  refine ⟨_, ?_, ?_, h5⟩
  · unfold hillRate
    rw [div_ok h3.ne', ok_bind, sqrt_ok (rnd_pos hpos).le]
  · exact rnd_pos (Real.sqrt_pos.mpr (rnd_pos hpos))

/-- the size of a relative state, velocities being counted in units of `n` -/
def Size (n L : ℝ) (X : Vec6) : Prop :=
  (|X.x| ≤ L ∧ |X.y| ≤ L ∧ |X.z| ≤ L) ∧ |X.vx| ≤ n * L ∧ |X.vy| ≤ n * L ∧ |X.vz| ≤ n * L

theorem size_of_sc {n L : ℝ} {X Y : Vec6} {k c : ℝ} (h : k * u ≤ c)
    (h1 : Sc Y.x X.x k L) (h2 : Sc Y.y X.y k L) (h3 : Sc Y.z X.z k L) (h4 : Sc Y.vx X.vx k (n * L))
    (h5 : Sc Y.vy X.vy k (n * L)) (h6 : Sc Y.vz X.vz k (n * L)) : Size n (c * L) (Y.minus X) := by
  have hL := h1.nonneg
  have hnL := h4.nonneg
  have e1 : k * u * L ≤ c * L := by gcongr
  have e2 : k * u * (n * L) ≤ n * (c * L) := by
    have : k * u * (n * L) ≤ c * (n * L) := by gcongr
    linarith
  exact ⟨⟨h1.1.trans e1, h2.1.trans e1, h3.1.trans e1⟩, h4.1.trans e2, h5.1.trans e2, h6.1.trans e2⟩

theorem hillStep_near {lib : Libm} (hlib : Spec.Accurate lib) {n n' t L : ℝ} (hn : 0 < n) (hn' : 0 < n')
    (h : Near n' n 5.01) {X : Vec6} (hX : Size n L X) : ∃ Y, hillStep lib n' t X = .ok Y ∧
    Size n (6 / 10 ^ 14 * ((1 + |n * t|) * L)) (Y.minus ((Hill.phi n t).mulVec X)) := by
  have hu := u_pos
  have hu' := u_tiny
  obtain ⟨⟨x1, x2, x3⟩, x4, x5, x6⟩ := hX
  have hL : 0 ≤ L := (abs_nonneg _).trans x1
  obtain ⟨θ, hθ⟩ : ∃ θ, θ = 1 + |n * t| := ⟨_, rfl⟩
  have hθ1 : 1 ≤ θ := by have := abs_nonneg (n * t); linarith
  have hm1 : (0 : ℝ) ≤ 1 / n := by positivity
  -- the angle
  have hp : Near (rnd (n' * t)) (n * t) 6.02 :=
    ((h.mul' (Near.refl t) le_rfl (by norm_num) (by norm_num) (by norm_num)).round' (by norm_num) (by norm_num)).mono
      (by norm_num)
  have hang : |rnd (n' * t) - n * t| ≤ 6.02 * u * (θ - 1) := by
    rw [hθ, add_sub_cancel_left]; exact hp
  have hP : Sc (rnd (n' * t)) (n * t) 6.02 θ := Sc.of_near hp (by norm_num) (by linarith)
  have hlsb : (1 : ℝ) / 2 ^ 52 = 2 * u := by unfold u; norm_num
  have hsn : Sc (lib.sin (rnd (n' * t))) (sin (n * t)) 6.02 θ := by
    refine ⟨?_, (abs_sin_le_one _).trans hθ1⟩
    have a1 := hlib.sin (rnd (n' * t))
    have a2 := abs_sin_sub_sin_le (rnd (n' * t)) (n * t)
    have a3 := abs_sub_le (lib.sin (rnd (n' * t))) (sin (rnd (n' * t))) (sin (n * t))
    rw [hlsb] at a1
    linarith
  have hcs : Sc (lib.cos (rnd (n' * t))) (cos (n * t)) 6.02 θ := by
    refine ⟨?_, (abs_cos_le_one _).trans hθ1⟩
    have a1 := hlib.cos (rnd (n' * t))
    have a2 := abs_cos_sub_cos_le (rnd (n' * t)) (n * t)
    have a3 := abs_sub_le (lib.cos (rnd (n' * t))) (cos (rnd (n' * t))) (cos (n * t))
    rw [hlsb] at a1
    linarith
  obtain ⟨sn, hsne⟩ : ∃ sn, sn = lib.sin (rnd (n' * t)) := ⟨_, rfl⟩
  obtain ⟨cs, hcse⟩ : ∃ cs, cs = lib.cos (rnd (n' * t)) := ⟨_, rfl⟩
  rw [← hsne] at hsn
  rw [← hcse] at hcs
  -- the inverse of the mean motion
  obtain ⟨hne, hinv⟩ := near_inv' h hn.ne' (by norm_num) (by norm_num)
  have hinv' : Sc (rnd (1 / n')) (1 / n) 6.02 (1 / n) :=
    Sc.of_near ((hinv.round' (by norm_num) (by norm_num)).mono (by norm_num)) (by norm_num) (by rw [abs_of_nonneg hm1])
  have hn3 : Sc n' n 5.01 n := Sc.of_near h (by norm_num) (by rw [abs_of_pos hn])
  have num : ∀ c : ℝ, Sc c c 0 |c| := fun c => Sc.exact le_rfl
  -- the entries
  have q3 : ∀ c : ℝ, Sc (rnd (c * n')) (c * n) 6.02 (|c| * n) := fun c =>
    ((num c).mul hn3 le_rfl (by norm_num) (by norm_num) (by norm_num)).mono (by norm_num)
  have i1c : Sc (rnd (1 - cs)) (1 - cos (n * t)) 7.03 (1 + θ) :=
    ((((num 1).mono (show (0:ℝ) ≤ 6.02 by norm_num)).sub hcs (by norm_num) (by norm_num)).mono (by norm_num)).scale
      (by norm_num) (by norm_num)
  have kc : ∀ c : ℝ, Sc (rnd (c * cs)) (c * cos (n * t)) 7.03 (|c| * θ) := fun c =>
    ((num c).mul hcs le_rfl (by norm_num) (by norm_num) (by norm_num)).mono (by norm_num)
  have ks : ∀ c : ℝ, Sc (rnd (c * sn)) (c * sin (n * t)) 7.03 (|c| * θ) := fun c =>
    ((num c).mul hsn le_rfl (by norm_num) (by norm_num) (by norm_num)).mono (by norm_num)
  have k1c : ∀ c : ℝ, Sc (rnd (c * rnd (1 - cs))) (c * (1 - cos (n * t))) 8.05 (|c| * (1 + θ)) := fun c =>
    ((num c).mul i1c le_rfl (by norm_num) (by norm_num) (by norm_num)).mono (by norm_num)
  have e11 : Sc (rnd (4 - rnd (3 * cs))) (4 - 3 * cos (n * t)) 15.2 (4 + 3 * θ) :=
    ((((num 4).mono (show (0:ℝ) ≤ 7.03 by norm_num)).sub (kc 3) (by norm_num) (by norm_num)).mono (by norm_num)).scale
      (by norm_num) (by norm_num)
  have e14 : Sc (rnd (sn * rnd (1 / n'))) (sin (n * t) * (1 / n)) 15.2 (θ * (1 / n)) :=
    (hsn.mul hinv' (by norm_num) (by norm_num) (by norm_num) (by norm_num)).mono (by norm_num)
  have e15 : ∀ c : ℝ, Sc (rnd (rnd (c * rnd (1 - cs)) * rnd (1 / n'))) (c * (1 - cos (n * t)) * (1 / n)) 15.2
      (|c| * (1 + θ) * (1 / n)) := fun c =>
    ((k1c c).mul hinv' (by norm_num) (by norm_num) (by norm_num) (by norm_num)).mono (by norm_num)
  have e21 : Sc (rnd (6 * rnd (sn - rnd (n' * t)))) (6 * (sin (n * t) - n * t)) 15.2 (12 * θ) :=
    ((((num 6).mul (hsn.sub hP (by norm_num) (by norm_num)) le_rfl (by norm_num) (by norm_num) (by norm_num)).mono
      (by norm_num)).scale (by norm_num) (by rw [abs_of_pos (by norm_num : (0:ℝ) < 6)]; linarith))
  have q3t : Sc (rnd (rnd (3 * n') * t)) (3 * n * t) 7.03 (3 * θ) := by
    have := ((q3 3).mul (num t) (by norm_num) (by norm_num) le_rfl (by norm_num)).mono (show _ ≤ 7.03 by norm_num)
    refine this.scale (by norm_num) ?_
    rw [abs_of_pos (by norm_num : (0:ℝ) < 3), mul_assoc, ← abs_of_pos hn, ← abs_mul]
    linarith
  have e25 : Sc (rnd (rnd (rnd (4 * sn) - rnd (rnd (3 * n') * t)) * rnd (1 / n')))
      ((4 * sin (n * t) - 3 * n * t) * (1 / n)) 15.2 (7 * θ * (1 / n)) :=
    ((((ks 4).sub q3t (by norm_num) (by norm_num)).scale (by norm_num)
      (show _ ≤ 7 * θ by rw [abs_of_pos (by norm_num : (0:ℝ) < 4)]; linarith)).mul hinv' (by norm_num) (by norm_num)
      (by norm_num) (by norm_num)).mono (by norm_num)
  have e41 : Sc (rnd (rnd (3 * n') * sn)) (3 * n * sin (n * t)) 15.2 (3 * n * θ) :=
    (((q3 3).mul hsn (by norm_num) (by norm_num) (by norm_num) (by norm_num)).mono (by norm_num)).scale (by norm_num)
      (by rw [abs_of_pos (by norm_num : (0:ℝ) < 3)])
  have e51 : Sc (rnd (rnd (-6 * n') * rnd (1 - cs))) (-6 * n * (1 - cos (n * t))) 15.2 (6 * n * (1 + θ)) :=
    (((q3 (-6)).mul i1c (by norm_num) (by norm_num) (by norm_num) (by norm_num)).mono (by norm_num)).scale (by norm_num)
      (by rw [abs_neg, abs_of_pos (by norm_num : (0:ℝ) < 6)])
  have e55 : Sc (rnd (rnd (4 * cs) - 3)) (4 * cos (n * t) - 3) 15.2 (4 * θ + 3) :=
    (((kc 4).sub ((num 3).mono (show (0:ℝ) ≤ 7.03 by norm_num)) (by norm_num) (by norm_num)).mono (by norm_num)).scale
      (by norm_num) (by norm_num)
  have e63 : Sc (rnd (-n' * sn)) (-n * sin (n * t)) 15.2 (n * θ) :=
    (hn3.neg.mul hsn (by norm_num) (by norm_num) (by norm_num) (by norm_num)).mono (by norm_num)
  have z : Sc 0 0 15.2 0 := ⟨by simp, by simp⟩
  have one : Sc 1 1 15.2 1 := (Sc.exact (by norm_num)).mono (by norm_num)
  have hc := hcs.mono (show (6.02:ℝ) ≤ 15.2 by norm_num)
  have k2 : ∀ c : ℝ, Sc (rnd (c * sn)) (c * sin (n * t)) 15.2 (|c| * θ) := fun c => (ks c).mono (by norm_num)
  have hnn : 1 / n * (n * L) = L := by field_simp
  have hθL : L ≤ θ * L := le_mul_of_one_le_left hL hθ1
  have fin : ∀ {y x s s' : ℝ}, Sc y x (15.2 + 6.1) s → s ≤ 24 * s' → 0 ≤ s' → |y - x| ≤ 6 / 10 ^ 14 * s' := by
    intro y x s s' h1 h2 h3
    refine h1.1.trans ?_
    have a1 : (15.2 + 6.1) * u * s ≤ (15.2 + 6.1) * u * (24 * s') := by gcongr
    have a2 : (15.2 + 6.1) * u * 24 ≤ 6 / 10 ^ 14 := by linarith
    nlinarith
  have hnL : 0 ≤ n * L := by positivity
  have two : |(2 : ℝ)| = 2 := abs_of_pos (by norm_num)
  have mtwo : |(-2 : ℝ)| = 2 := by rw [abs_neg]; exact two
  have pL : 0 ≤ θ * L := by positivity
  have pnL : 0 ≤ n * (θ * L) := by positivity
  refine ⟨_, by unfold hillStep hillMatrix; rw [div_ok hne]; rfl, ?_⟩
  rw [← hθ]
  have back : ∀ d : ℝ, n * (6 / 10 ^ 14 * d) = 6 / 10 ^ 14 * (n * d) := fun d => by ring
  unfold Size
  simp only [back]
  refine ⟨⟨?_, ?_, ?_⟩, ?_, ?_, ?_⟩
  · refine fin (Sc.dot6 (by norm_num) (by norm_num) (hcse ▸ e11) z z (hsne ▸ e14) (hcse ▸ e15 2) z x1 x2 x3 x4 x5 x6) ?_ pL
    simp only [two, zero_mul, add_zero, mul_assoc, hnn]
    linarith
  · refine fin (Sc.dot6 (by norm_num) (by norm_num) (hsne ▸ e21) one z (hcse ▸ e15 (-2)) (hsne ▸ e25) z x1 x2 x3 x4 x5 x6)
      ?_ pL
    simp only [mtwo, zero_mul, add_zero, mul_assoc, hnn]
    linarith
  · refine fin (Sc.dot6 (by norm_num) (by norm_num) z z (hcse ▸ hc) z z (hsne ▸ e14) x1 x2 x3 x4 x5 x6) ?_ pL
    simp only [zero_mul, add_zero, mul_assoc, hnn]
    linarith
  · refine fin (Sc.dot6 (by norm_num) (by norm_num) (hsne ▸ e41) z z (hcse ▸ hc) (hsne ▸ k2 2) z x1 x2 x3 x4 x5 x6) ?_ pnL
    simp only [two, zero_mul, add_zero]
    linarith
  · refine fin (Sc.dot6 (by norm_num) (by norm_num) (hcse ▸ e51) z z (hsne ▸ k2 (-2)) (hcse ▸ e55) z x1 x2 x3 x4 x5 x6)
      ?_ pnL
    simp only [mtwo, zero_mul, add_zero]
    have : n * L ≤ n * (θ * L) := by gcongr
    linarith
  · refine fin (Sc.dot6 (by norm_num) (by norm_num) z z (hsne ▸ e63) z z (hcse ▸ hc) x1 x2 x3 x4 x5 x6) ?_ pnL
    simp only [zero_mul, add_zero]
    linarith

theorem Size.mono {n L M : ℝ} {X : Vec6} (hn : 0 ≤ n) (h : Size n L X) (hLM : L ≤ M) : Size n M X := by
  obtain ⟨⟨x1, x2, x3⟩, x4, x5, x6⟩ := h
  have : n * L ≤ n * M := by gcongr
  exact ⟨⟨x1.trans hLM, x2.trans hLM, x3.trans hLM⟩, x4.trans this, x5.trans this, x6.trans this⟩

theorem Size.plus {n L M : ℝ} {X Y : Vec6} (h : Size n L X) (k : Size n M Y) : Size n (L + M) (X.plus Y) := by
  obtain ⟨⟨x1, x2, x3⟩, x4, x5, x6⟩ := h
  obtain ⟨⟨y1, y2, y3⟩, y4, y5, y6⟩ := k
  have aux : ∀ {a b A B : ℝ}, |a| ≤ A → |b| ≤ B → |a + b| ≤ A + B := fun h k => (abs_add_le _ _).trans (add_le_add h k)
  unfold Size
  rw [mul_add]
  exact ⟨⟨aux x1 y1, aux x2 y2, aux x3 y3⟩, aux x4 y4, aux x5 y5, aux x6 y6⟩

theorem phi_size {n t L : ℝ} (hn : 0 < n) {X : Vec6} (hX : Size n L X) :
    Size n (21 * (1 + |n * t|) * L) ((Hill.phi n t).mulVec X) := by
  obtain ⟨⟨x1, x2, x3⟩, x4, x5, x6⟩ := hX
  have hL : 0 ≤ L := (abs_nonneg _).trans x1
  obtain ⟨φ, hφ⟩ : ∃ φ, φ = |n * t| := ⟨_, rfl⟩
  have hφ0 : 0 ≤ φ := hφ ▸ abs_nonneg _
  have s1 := abs_sin_le_one (n * t)
  have c1 := abs_cos_le_one (n * t)
  obtain ⟨S, hS⟩ : ∃ S, S = sin (n * t) := ⟨_, rfl⟩
  obtain ⟨C, hC⟩ : ∃ C, C = cos (n * t) := ⟨_, rfl⟩
  obtain ⟨τ, hτ⟩ : ∃ τ, τ = n * t := ⟨_, rfl⟩
  rw [← hS] at s1
  rw [← hC] at c1
  have hnn : ∀ a : ℝ, a * (1 / n) * (n * L) = a * L := fun a => by field_simp
  have mb : ∀ {a b A B : ℝ}, |a| ≤ A → |b| ≤ B → |a * b| ≤ A * B := fun {a b A B} h k => by
    rw [abs_mul]; exact mul_le_mul h k (abs_nonneg _) ((abs_nonneg _).trans h)
  have ab : ∀ {a b A B : ℝ}, |a| ≤ A → |b| ≤ B → |a + b| ≤ A + B := fun h k => (abs_add_le _ _).trans (add_le_add h k)
  have inv : |1 / n| ≤ 1 / n := by rw [abs_of_pos (by positivity)]
  have hC2 : |1 - C| ≤ 2 := by rw [abs_le] at c1 ⊢; constructor <;> linarith
  have hτ2 : |τ| ≤ φ := by rw [hφ, hτ]
  have hb1 : |4 - 3 * C| ≤ 7 := by rw [abs_le] at c1 ⊢; constructor <;> linarith
  have hb2 : |6 * (S - τ)| ≤ 6 * (1 + φ) := by rw [abs_le] at s1 hτ2 ⊢; constructor <;> linarith
  have hb3 : |4 * S - 3 * τ| ≤ 4 + 3 * φ := by rw [abs_le] at s1 hτ2 ⊢; constructor <;> linarith
  have hb4 : |4 * C - 3| ≤ 7 := by rw [abs_le] at c1 ⊢; constructor <;> linarith
  have h2c : ∀ k : ℝ, |k| = 2 → |k * (1 - C)| ≤ 4 := fun k hk => by rw [abs_mul, hk]; linarith
  have h2s : ∀ k : ℝ, |k| = 2 → |k * S| ≤ 2 := fun k hk => by rw [abs_mul, hk]; linarith
  have t2 : |(2 : ℝ)| = 2 := abs_of_pos (by norm_num)
  have t2' : |(-2 : ℝ)| = 2 := by rw [abs_neg]; exact t2
  have hn3 : |3 * n * S| ≤ 3 * n := by
    rw [abs_mul, abs_of_pos (by positivity : 0 < 3 * n)]
    exact mul_le_of_le_one_right (by positivity) s1
  have hn6 : |-6 * n * (1 - C)| ≤ 12 * n := by
    rw [abs_mul, show |-6 * n| = 6 * n by rw [neg_mul, abs_neg, abs_of_pos (by positivity)]]
    nlinarith
  have hn1 : |-n * S| ≤ n := by
    rw [abs_mul, abs_neg, abs_of_pos hn]
    exact mul_le_of_le_one_right hn.le s1
  have nL : 0 ≤ n * L := by positivity
  have φL : 0 ≤ φ * L := by positivity
  have φnL : 0 ≤ φ * (n * L) := by positivity
  rw [← hφ]
  have e3 : 3 * n * t = 3 * τ := by rw [hτ]; ring
  unfold Size Mat6.mulVec Hill.phi Vec6.dot
  simp only [← hS, ← hC, zero_mul, add_zero, zero_add, one_mul, e3]
  rw [← hτ]
  refine ⟨⟨?_, ?_, ?_⟩, ?_, ?_, ?_⟩
  · refine (ab (ab (mb hb1 x1) (mb (mb s1 inv) x4)) (mb (mb (h2c 2 t2) inv) x5)).trans ?_
    rw [hnn, hnn]; linarith
  · refine (ab (ab (ab (mb hb2 x1) x2) (mb (mb (h2c (-2) t2') inv) x4)) (mb (mb hb3 inv) x5)).trans ?_
    rw [hnn, hnn]; linarith
  · refine (ab (mb c1 x3) (mb (mb s1 inv) x6)).trans ?_
    rw [hnn]; linarith
  · refine (ab (ab (mb hn3 x1) (mb c1 x4)) (mb (h2s 2 t2) x5)).trans ?_
    linarith
  · refine (ab (ab (mb hn6 x1) (mb (h2s (-2) t2') x4)) (mb hb4 x5)).trans ?_
    linarith
  · refine (ab (mb hn1 x3) (mb c1 x6)).trans ?_
    linarith

theorem mulVec_plus (m : Mat6) (a b : Vec6) : m.mulVec (a.plus b) = (m.mulVec a).plus (m.mulVec b) := by
  ext <;> simp only [Mat6.mulVec, Vec6.dot, Vec6.plus] <;> ring

theorem hillSteps_near {lib : Libm} (hlib : Spec.Accurate lib) {n n' h L Θ : ℝ} (hn : 0 < n) (hn' : 0 < n')
    (hnn : Near n' n 5.01) {X : Vec6} (hX : Size n L X) (N : ℕ) (hΘ : Θ = 1 + n * (N * |h|))
    (hN : N * (1 + |n * h|) * Θ ≤ 10 ^ 11) :
    ∃ Y, hillSteps lib n' h N X = .ok Y ∧
      Size n (6 / 10 ^ 11 * (N * (1 + |n * h|) * Θ ^ 2) * L) (Y.minus ((Hill.phi n (N * h)).mulVec X)) := by
  have hL : 0 ≤ L := (abs_nonneg _).trans hX.1.1
  have hΘ1 : 1 ≤ Θ := by rw [hΘ]; have : 0 ≤ n * (N * |h|) := by positivity
                         linarith
  obtain ⟨θ, hθ⟩ : ∃ θ, θ = 1 + |n * h| := ⟨_, rfl⟩
  have hθ1 : 1 ≤ θ := by have := abs_nonneg (n * h); linarith
  rw [← hθ] at hN ⊢
  obtain ⟨δ, hδ⟩ : ∃ δ, δ = 6 / 10 ^ 14 * (θ * (42 * Θ * L)) := ⟨_, rfl⟩
  have hδ0 : 0 ≤ δ := by rw [hδ]; positivity
  have hΦ : ∀ j ≤ N, ∀ {M : ℝ} {Z : Vec6}, Size n M Z → Size n (21 * Θ * M) ((Hill.phi n (j * h)).mulVec Z) := by
    intro j hj M Z hZ
    have hM : 0 ≤ M := (abs_nonneg _).trans hZ.1.1
    refine (phi_size hn hZ).mono hn.le ?_
    have : |n * (j * h)| ≤ n * (N * |h|) := by
      rw [abs_mul, abs_mul, abs_of_pos hn, Nat.abs_cast]
      have : (j : ℝ) ≤ N := by exact_mod_cast hj
      gcongr
    have : 1 + |n * (j * h)| ≤ Θ := by rw [hΘ]; linarith
    gcongr
  have key : ∀ k ≤ N, ∃ Y E, hillSteps lib n' h k X = .ok Y ∧ Y = ((Hill.phi n (k * h)).mulVec X).plus E ∧
      ∀ j, j + k ≤ N → Size n (k * (21 * Θ * δ)) ((Hill.phi n (j * h)).mulVec E) := by
    intro k
    induction k with
    | zero =>
      intro _
      refine ⟨X, ⟨0, 0, 0, 0, 0, 0⟩, rfl, ?_, fun j _ => ?_⟩
      · rw [Nat.cast_zero, zero_mul, Hill.phi_zero_mulVec]
        ext <;> simp [Vec6.plus]
      · have : (Hill.phi n (j * h)).mulVec ⟨0, 0, 0, 0, 0, 0⟩ = ⟨0, 0, 0, 0, 0, 0⟩ := by
          ext <;> simp [Mat6.mulVec, Vec6.dot]
        rw [this]
        simp [Size]
    | succ k ih =>
      intro hk
      obtain ⟨Y, E, h1, h2, h3⟩ := ih (by omega)
      have hE := h3 0 (by omega)
      rw [Nat.cast_zero, zero_mul, Hill.phi_zero_mulVec] at hE
      have hkN : (k : ℝ) ≤ N := by exact_mod_cast (by omega : k ≤ N)
      have hEb : k * (21 * Θ * δ) ≤ 21 * Θ * L := by
        have a1 : (k : ℝ) * (21 * Θ * δ) ≤ N * (21 * Θ * δ) := by gcongr
        have a2 : N * (21 * Θ * δ) = (N * θ * Θ) * (21 * Θ * L * (6 / 10 ^ 14 * 42)) := by rw [hδ]; ring
        have a3 : (N * θ * Θ) * (21 * Θ * L * (6 / 10 ^ 14 * 42)) ≤ 10 ^ 11 * (21 * Θ * L * (6 / 10 ^ 14 * 42)) := by
          gcongr
        have a4 : 0 ≤ 21 * Θ * L := by positivity
        linarith
      have hY : Size n (42 * Θ * L) Y := by
        rw [h2]
        exact ((hΦ k (by omega) hX).plus hE).mono hn.le (by linarith)
      obtain ⟨Z, g1, g2⟩ := hillStep_near hlib hn hn' (t := h) hnn hY
      rw [← hθ, ← hδ] at g2
      refine ⟨Z, ((Hill.phi n h).mulVec E).plus (Z.minus ((Hill.phi n h).mulVec Y)), ?_, ?_, fun j hj => ?_⟩
      · rw [hillSteps, h1, ok_bind, g1]
      · have e1 : ((k + 1 : ℕ) : ℝ) * h = h + k * h := by push_cast; ring
        rw [e1, Hill.phi_add_mulVec hn.ne', h2, mulVec_plus]
        ext <;> simp only [Vec6.plus, Vec6.minus] <;> ring
      · rw [mulVec_plus]
        have f1 := h3 (j + 1) (by omega)
        have e1 : ((j + 1 : ℕ) : ℝ) * h = j * h + h := by push_cast; ring
        rw [e1, Hill.phi_add_mulVec hn.ne'] at f1
        refine (f1.plus (hΦ j (by omega) g2)).mono hn.le (le_of_eq ?_)
        push_cast
        ring
  obtain ⟨Y, E, h1, h2, h3⟩ := key N le_rfl
  refine ⟨Y, h1, ?_⟩
  have hE := h3 0 (by omega)
  rw [Nat.cast_zero, zero_mul, Hill.phi_zero_mulVec] at hE
  have : Y.minus ((Hill.phi n (N * h)).mulVec X) = E := by
    rw [h2]; ext <;> simp [Vec6.plus, Vec6.minus]
  rw [this]
  refine hE.mono hn.le ?_
  have e : N * (21 * Θ * δ) = 6 / 10 ^ 14 * 882 * (N * θ * Θ ^ 2 * L) := by rw [hδ]; ring
  rw [e, mul_assoc (6 / 10 ^ 11 : ℝ)]
  gcongr
  norm_num

end F64

theorem hill_rate {s : State} {a : ℝ} (ha : 0 < a) {p : Hill} (hp : Hill.new s a = .ok p) :
    0 < p.n ∧ p.n = √(Earth.MU / (a * a * a)) := by
  have hmu := mu_pos
  have h3 : 0 < a * a * a := by positivity
  have hq : 0 < Earth.MU / (a * a * a) := by positivity
  simp only [Hill.new, pyDiv_ok h3.ne', ok_bind, pySqrt_ok hq.le, pure_eq_ok, Except.ok.injEq] at hp
  subst hp
  exact ⟨Real.sqrt_pos.mpr hq, rfl⟩

/-- One `step_by_seconds(t)` in double precision: for a relative state whose coordinates are at most `L` km and whose
velocities are at most `n L`, the rounding error is at most 6e-14 `(1 + n |t|) L` in position and `n` times that in
velocity -/
theorem C129_step {lib : F64.Libm} (hlib : Spec.Accurate lib) {a : ℝ} (ha : 0 < a) (s : State) (L t : ℝ) (p : Hill)
    (hp : Hill.new s a = .ok p)
    (hr : |p.state.vector.x| ≤ L ∧ |p.state.vector.y| ≤ L ∧ |p.state.vector.z| ≤ L)
    (hv : |p.state.vector.vx| ≤ p.n * L ∧ |p.state.vector.vy| ≤ p.n * L ∧ |p.state.vector.vz| ≤ p.n * L) :
    ∃ n' Y q, F64.hillRate a = .ok n' ∧ F64.hillStep lib n' t p.state.vector = .ok Y ∧ Hill.stepBySeconds t p = (.ok (), q) ∧
      ∀ E, E = 6 / 10 ^ 14 * (1 + p.n * |t|) * L →
        (|Y.x - q.state.vector.x| ≤ E ∧ |Y.y - q.state.vector.y| ≤ E ∧ |Y.z - q.state.vector.z| ≤ E) ∧
        |Y.vx - q.state.vector.vx| ≤ p.n * E ∧ |Y.vy - q.state.vector.vy| ≤ p.n * E ∧
        |Y.vz - q.state.vector.vz| ≤ p.n * E := by
  have hmu := mu_pos
  obtain ⟨n', h1, h2, h3⟩ := F64.hillRate_near ha
  obtain ⟨hn, hpn⟩ := hill_rate ha hp
  rw [← hpn] at h3
  obtain ⟨Y, g1, g2⟩ := F64.hillStep_near hlib hn h2 (t := t) h3 (X := p.state.vector) ⟨hr, hv⟩
  refine ⟨n', Y, _, h1, g1, Hill.stepBySeconds_ok hn.ne' t, ?_⟩
  rintro E rfl
  rw [abs_mul, abs_of_pos hn, ← mul_assoc] at g2
  exact g2

/-- `N` calls of `step()` with step size `h`, from the same states -/
theorem C129_steps {lib : F64.Libm} (hlib : Spec.Accurate lib) {a : ℝ} (ha : 0 < a) (s : State) (L h : ℝ) (p : Hill)
    (hp : Hill.new s a = .ok p)
    (hr : |p.state.vector.x| ≤ L ∧ |p.state.vector.y| ≤ L ∧ |p.state.vector.z| ≤ L)
    (hv : |p.state.vector.vx| ≤ p.n * L ∧ |p.state.vector.vy| ≤ p.n * L ∧ |p.state.vector.vz| ≤ p.n * L) (N : ℕ) (Θ : ℝ)
    (hΘ : Θ = 1 + p.n * (N * |h|)) (hN : N * (1 + p.n * |h|) * Θ ≤ 10 ^ 11) :
    ∃ n' Y q, F64.hillRate a = .ok n' ∧ F64.hillSteps lib n' h N p.state.vector = .ok Y ∧
      PyM.repeatN N Hill.step { p with step_size := h } = (.ok (), q) ∧
      ∀ E, E = 6 / 10 ^ 11 * (N * (1 + p.n * |h|) * Θ ^ 2) * L →
        (|Y.x - q.state.vector.x| ≤ E ∧ |Y.y - q.state.vector.y| ≤ E ∧ |Y.z - q.state.vector.z| ≤ E) ∧
        |Y.vx - q.state.vector.vx| ≤ p.n * E ∧ |Y.vy - q.state.vector.vy| ≤ p.n * E ∧
        |Y.vz - q.state.vector.vz| ≤ p.n * E := by
  obtain ⟨n', h1, h2, h3⟩ := F64.hillRate_near ha
  obtain ⟨hn, hpn⟩ := hill_rate ha hp
  rw [← hpn] at h3
  have e : |p.n * h| = p.n * |h| := by rw [abs_mul, abs_of_pos hn]
  obtain ⟨Y, g1, g2⟩ := F64.hillSteps_near hlib hn h2 h3 (h := h) (X := p.state.vector) ⟨hr, hv⟩ N hΘ (by rw [e]; exact hN)
  rw [e] at g2
  cases N with
  | zero =>
    refine ⟨n', Y, { p with step_size := h }, h1, g1, rfl, ?_⟩
    rintro E rfl
    rw [Nat.cast_zero] at g2 ⊢
    rw [zero_mul h, Hill.phi_zero_mulVec] at g2
    exact g2
  | succ k =>
    refine ⟨n', Y, _, h1, g1, (C49_step { p with step_size := h } hn.ne' k).trans 
      (Hill.stepBySeconds_ok (p := { p with step_size := h }) hn.ne' _), ?_⟩
    rintro E rfl
    rw [Nat.cast_succ] at g2 ⊢
    exact g2

/-- a spacecraft 10 km behind a geosynchronous one, propagated for a day in steps of ten minutes: within a centimetre -/
example : ∃ p n' Y q, Hill.new (State.new ⟨0⟩ ⟨0, -10, 0⟩ ⟨0, 0, 0⟩) 42164 = .ok p ∧ F64.hillRate 42164 = .ok n' ∧
    F64.hillSteps F64.rounded n' 600 144 ⟨0, -10, 0, 0, 0, 0⟩ = .ok Y ∧
    PyM.repeatN 144 Hill.step { p with step_size := 600 } = (.ok (), q) ∧ |Y.y - q.state.vector.y| ≤ 1 / 10 ^ 5 := by
  obtain ⟨p, hp, hn, h2, -, hs⟩ := hill_new_ok (State.new ⟨0⟩ ⟨0, -10, 0⟩ ⟨0, 0, 0⟩) (show (0:ℝ) < 42164 by norm_num)
  have hv : p.state.vector = ⟨0, -10, 0, 0, 0, 0⟩ := by
    rw [hs]; simp [State.copy, State.new, Vec6.fromPosVel]
  have hn1 : p.n ≤ 1 / 10 ^ 4 := by
    by_contra h
    have : (1 / 10 ^ 4 : ℝ) ^ 2 < p.n ^ 2 := by gcongr; linarith
    norm_num [Earth.MU] at h2 this
    linarith
  obtain ⟨n', Y, q, h1, h3, h4, h5⟩ := C129_steps F64.rounded_accurate.1 (by norm_num) _ 10 600 p hp (by rw [hv]; norm_num)
    (by rw [hv]; simp only [abs_zero]; refine ⟨?_, ?_, ?_⟩ <;> positivity) 144 _ rfl (by
      push_cast
      rw [abs_of_pos (by norm_num : (0:ℝ) < 600)]
      nlinarith)
  rw [hv] at h3
  refine ⟨p, n', Y, q, hp, h1, h3, h4, (h5 _ rfl).1.2.1.trans ?_⟩
  push_cast
  rw [abs_of_pos (by norm_num : (0:ℝ) < 600)]
  have a1 : 1 + p.n * 600 ≤ 1.06 := by linarith
  have a2 : 1 + p.n * (144 * 600) ≤ 9.64 := by linarith
  have a3 : 144 * (1 + p.n * 600) * (1 + p.n * (144 * 600)) ^ 2 ≤ 144 * 1.06 * 9.64 ^ 2 := by gcongr
  linarith

end Openspace
