import Verif.Lemmas.Linearised
import Verif.Spec.TwoBody
import Mathlib.Analysis.InnerProductSpace.Calculus

/-!
# Property C94: the relative propagator against two-body motion
-/

namespace Openspace

open Real Spec

theorem basis_inner (b : OrthonormalBasis (Fin 3) ℝ Space) :
    (inner ℝ (b 0) (b 0) : ℝ) = 1 ∧ (inner ℝ (b 1) (b 1) : ℝ) = 1 ∧ (inner ℝ (b 0) (b 1) : ℝ) = 0 ∧
    (inner ℝ (b 1) (b 0) : ℝ) = 0 ∧ (inner ℝ (b 2) (b 0) : ℝ) = 0 ∧ (inner ℝ (b 2) (b 1) : ℝ) = 0 := by
  have hb : ∀ i j, inner ℝ (b i) (b j) = if i = j then (1 : ℝ) else 0 := fun i j => by
    simpa using orthonormal_iff_ite.mp b.orthonormal i j
  refine ⟨?_, ?_, ?_, ?_, ?_, ?_⟩ <;> rw [hb] <;> simp

theorem rel_norm (b : OrthonormalBasis (Fin 3) ℝ Space) (n t : ℝ) (d : Space) :
    relX b n t d ^ 2 + relY b n t d ^ 2 + relZ b d ^ 2 = ‖d‖ ^ 2 := by
  rw [← b.sum_sq_norm_inner_right d, Fin.sum_univ_three]
  simp only [norm_eq_abs, sq_abs, relX, relY, relZ, radial, inTrack, inner_add_left, inner_smul_left, conj_trivial]
  linear_combination ((inner ℝ (b 0) d : ℝ) ^ 2 + (inner ℝ (b 1) d : ℝ) ^ 2) * cos_sq_add_sin_sq (n * t)

/-- differential equations of the components in the turning frame -/
theorem relative_motion {mu a n : ℝ} {I : Set ℝ} (b : OrthonormalBasis (Fin 3) ℝ Space) {R V : ℝ → Space}
    (h : TwoBody mu I R V) :
    let x := fun t => relX b n t (R t - circular b a n t)
    let y := fun t => relY b n t (R t - circular b a n t)
    let z := fun t => relZ b (R t - circular b a n t)
    let vx := fun t => relX b n t (V t) + n * y t
    let vy := fun t => relY b n t (V t) - n * (a + x t)
    let vz := fun t => relZ b (V t)
    (∀ t, ‖R t‖ ^ 2 = (a + x t) ^ 2 + y t ^ 2 + z t ^ 2) ∧
    Perturbed n I x y z vx vy vz
      (fun t => -(mu / ‖R t‖ ^ 3) * (a + x t) + n ^ 2 * a - 2 * n ^ 2 * x t)
      (fun t => -(mu / ‖R t‖ ^ 3) * y t + n ^ 2 * y t)
      (fun t => -(mu / ‖R t‖ ^ 3) * z t + n ^ 2 * z t) := by
  obtain ⟨h00, h11, h01, h10, h20, h21⟩ := basis_inner b
  obtain ⟨X, hX⟩ : ∃ X : ℝ → ℝ, X = fun t => inner ℝ (b 0) (R t) := ⟨_, rfl⟩
  obtain ⟨Y, hY⟩ : ∃ Y : ℝ → ℝ, Y = fun t => inner ℝ (b 1) (R t) := ⟨_, rfl⟩
  obtain ⟨Z, hZ⟩ : ∃ Z : ℝ → ℝ, Z = fun t => inner ℝ (b 2) (R t) := ⟨_, rfl⟩
  obtain ⟨U, hU⟩ : ∃ U : ℝ → ℝ, U = fun t => inner ℝ (b 0) (V t) := ⟨_, rfl⟩
  obtain ⟨W, hW⟩ : ∃ W : ℝ → ℝ, W = fun t => inner ℝ (b 1) (V t) := ⟨_, rfl⟩
  obtain ⟨S, hS⟩ : ∃ S : ℝ → ℝ, S = fun t => inner ℝ (b 2) (V t) := ⟨_, rfl⟩
  intro x y z vx vy vz
  have cs : ∀ t, cos (n * t) ^ 2 + sin (n * t) ^ 2 = 1 := fun t => cos_sq_add_sin_sq _
  have ex : x = fun t => cos (n * t) * X t + sin (n * t) * Y t - a := by
    funext t
    simp only [x, relX, circular, radial, hX, hY, inner_sub_right, inner_add_left, inner_add_right, inner_smul_left,
      inner_smul_right, h00, h11, h01, h10, conj_trivial]
    linear_combination -a * cs t
  have ey : y = fun t => -sin (n * t) * X t + cos (n * t) * Y t := by
    funext t
    simp only [y, relY, circular, radial, inTrack, hX, hY, inner_sub_right, inner_add_left, inner_add_right,
      inner_smul_left, inner_smul_right, h00, h11, h01, h10, conj_trivial]
    ring
  have ez : z = Z := by
    funext t
    simp only [z, relZ, circular, radial, hZ, inner_sub_right, inner_add_right, inner_smul_right, h20, h21]
    ring
  have evx : vx = fun t => cos (n * t) * U t + sin (n * t) * W t + n * y t := by
    funext t
    simp only [vx, relX, radial, hU, hW, inner_add_left, inner_smul_left, conj_trivial]
  have evy : vy = fun t => -sin (n * t) * U t + cos (n * t) * W t - n * (a + x t) := by
    funext t
    simp only [vy, relY, inTrack, hU, hW, inner_add_left, inner_smul_left, conj_trivial]
  have evz : vz = S := by rw [hS]; rfl
  have hnorm : ∀ t, ‖R t‖ ^ 2 = (a + x t) ^ 2 + y t ^ 2 + z t ^ 2 := by
    intro t
    have h2 : ‖R t‖ ^ 2 = X t ^ 2 + Y t ^ 2 + Z t ^ 2 := by
      rw [← b.sum_sq_norm_inner_right (R t), Fin.sum_univ_three, hX, hY, hZ]
      simp only [norm_eq_abs, sq_abs]
    rw [h2, ex, ey, ez]
    simp only
    linear_combination -(X t ^ 2 + Y t ^ 2) * cs t
  refine ⟨hnorm, ?_⟩
  have dR : ∀ i, ∀ t ∈ I, HasDerivAt (fun t => (inner ℝ (b i) (R t) : ℝ)) (inner ℝ (b i) (V t)) t := fun i t ht => by
    simpa using (hasDerivAt_const t (b i)).inner ℝ (h.velocity t ht)
  have dV : ∀ i, ∀ t ∈ I, HasDerivAt (fun t => (inner ℝ (b i) (V t) : ℝ))
      (-(mu / ‖R t‖ ^ 3) * inner ℝ (b i) (R t)) t := fun i t ht => by
    have := (hasDerivAt_const t (b i)).inner ℝ (h.attraction t ht)
    simpa only [inner_zero_left, add_zero, inner_smul_right] using this
  have dX : ∀ t ∈ I, HasDerivAt X (U t) t := by rw [hX, hU]; exact dR 0
  have dY : ∀ t ∈ I, HasDerivAt Y (W t) t := by rw [hY, hW]; exact dR 1
  have dZ : ∀ t ∈ I, HasDerivAt Z (S t) t := by rw [hZ, hS]; exact dR 2
  have dU : ∀ t ∈ I, HasDerivAt U (-(mu / ‖R t‖ ^ 3) * X t) t := by rw [hX, hU]; exact dV 0
  have dW : ∀ t ∈ I, HasDerivAt W (-(mu / ‖R t‖ ^ 3) * Y t) t := by rw [hY, hW]; exact dV 1
  have dS : ∀ t ∈ I, HasDerivAt S (-(mu / ‖R t‖ ^ 3) * Z t) t := by rw [hZ, hS]; exact dV 2
  have hl : ∀ t : ℝ, HasDerivAt (fun t => n * t) n t := fun t => by simpa using (hasDerivAt_id t).const_mul n
  have dx : ∀ t ∈ I, HasDerivAt x (vx t) t := fun t ht => by
    rw [evx, ey, ex]
    refine ((((hl t).cos.mul (dX t ht)).add ((hl t).sin.mul (dY t ht))).sub_const a).congr_deriv ?_
    simp only; ring
  have dy : ∀ t ∈ I, HasDerivAt y (vy t) t := fun t ht => by
    rw [evy, ex, ey]
    refine (((hl t).sin.neg.mul (dX t ht)).add ((hl t).cos.mul (dY t ht))).congr_deriv ?_
    simp only [Pi.neg_apply]; ring
  refine ⟨dx, dy, ?_, ?_, ?_, ?_⟩
  · rw [ez, evz]; exact dZ
  · intro t ht
    have e := (((hl t).cos.mul (dU t ht)).add ((hl t).sin.mul (dW t ht))).add ((dy t ht).const_mul n)
    rw [evx]
    refine e.congr_deriv ?_
    have e2 : vy t = -sin (n * t) * U t + cos (n * t) * W t - n * (a + x t) := by rw [evy]
    have e3 : x t = cos (n * t) * X t + sin (n * t) * Y t - a := by rw [ex]
    linear_combination (-n) * e2 + (mu / ‖R t‖ ^ 3) * e3
  · intro t ht
    have e := (((hl t).sin.neg.mul (dU t ht)).add ((hl t).cos.mul (dW t ht))).sub (((dx t ht).const_add a).const_mul n)
    rw [evy]
    refine e.congr_deriv ?_
    have e2 : vx t = cos (n * t) * U t + sin (n * t) * W t + n * y t := by rw [evx]
    have e3 : y t = -sin (n * t) * X t + cos (n * t) * Y t := by rw [ey]
    simp only [Pi.neg_apply]
    linear_combination n * e2 + (mu / ‖R t‖ ^ 3) * e3
  · intro t ht
    rw [evz, ez]
    exact (dS t ht).congr_deriv (by ring)

/-- the prediction of the relative propagator differs from two-body motion relative to a satellite in circular orbit
by terms of second order in the separation only -/
theorem C94_prediction (p : Hill) (a D T : ℝ) (s : State) (ha : 0 < a) (hp : Hill.new s a = .ok p)
    (b : OrthonormalBasis (Fin 3) ℝ Space) (R V : ℝ → Space) (hR : TwoBody Earth.MU (Set.uIcc 0 T) R V)
    (hD : ∀ t ∈ Set.uIcc 0 T, ‖R t - circular b a p.n t‖ ≤ D) (hDa : D ≤ a / 10)
    (h0 : p.state.vector =
      let d := R 0 - circular b a p.n 0
      ⟨relX b p.n 0 d, relY b p.n 0 d, relZ b d,
        relX b p.n 0 (V 0) + p.n * relY b p.n 0 d, relY b p.n 0 (V 0) - p.n * (a + relX b p.n 0 d), relZ b (V 0)⟩) :
    ∃ q, Hill.stepBySeconds T p = (.ok (), q) ∧
      let d := R T - circular b a p.n T
      let e := 25 * (p.n * T) ^ 2 * (D ^ 2 / a)
      let e' := 50 * |p.n * T| * p.n * (D ^ 2 / a)
      |relX b p.n T d - q.state.position.x| ≤ e ∧ |relY b p.n T d - q.state.position.y| ≤ e ∧
      |relZ b d - q.state.position.z| ≤ e ∧
      |relX b p.n T (V T) + p.n * relY b p.n T d - q.state.velocity.x| ≤ e' ∧
      |relY b p.n T (V T) - p.n * (a + relX b p.n T d) - q.state.velocity.y| ≤ e' ∧
      |relZ b (V T) - q.state.velocity.z| ≤ e' := by
  obtain ⟨p', hp', hn, hmu, -, -⟩ := hill_new_ok s ha
  rw [hp] at hp'; cases hp'
  have hD0 : 0 ≤ D := (norm_nonneg _).trans (hD 0 Set.left_mem_uIcc)
  refine ⟨_, Hill.stepBySeconds_ok hn.ne' T, ?_⟩
  obtain ⟨hnorm, hpert⟩ := relative_motion (a := a) (n := p.n) b hR
  obtain ⟨n, hne⟩ : ∃ n, n = p.n := ⟨_, rfl⟩
  rw [← hne] at hn hmu hnorm hpert hD h0 ⊢
  obtain ⟨x, hx⟩ : ∃ x : ℝ → ℝ, x = fun t => relX b n t (R t - circular b a n t) := ⟨_, rfl⟩
  obtain ⟨y, hy⟩ : ∃ y : ℝ → ℝ, y = fun t => relY b n t (R t - circular b a n t) := ⟨_, rfl⟩
  obtain ⟨z, hz⟩ : ∃ z : ℝ → ℝ, z = fun t => relZ b (R t - circular b a n t) := ⟨_, rfl⟩
  have hx' : ∀ t, relX b n t (R t - circular b a n t) = x t := fun t => by rw [hx]
  have hy' : ∀ t, relY b n t (R t - circular b a n t) = y t := fun t => by rw [hy]
  have hz' : ∀ t, relZ b (R t - circular b a n t) = z t := fun t => by rw [hz]
  simp only [hx', hy', hz'] at hnorm hpert h0 ⊢
  have hin : ∀ t ∈ Set.uIcc 0 T,
      |-(Earth.MU / ‖R t‖ ^ 3) * (a + x t) + n ^ 2 * a - 2 * n ^ 2 * x t| ≤ 11 * (n ^ 2 * (D ^ 2 / a)) ∧
      |-(Earth.MU / ‖R t‖ ^ 3) * y t + n ^ 2 * y t| ≤ 4 * (n ^ 2 * (D ^ 2 / a)) ∧
      |-(Earth.MU / ‖R t‖ ^ 3) * z t + n ^ 2 * z t| ≤ 4 * (n ^ 2 * (D ^ 2 / a)) := by
    intro t ht
    have hd := rel_norm b n t (R t - circular b a n t)
    rw [hx', hy', hz'] at hd
    have hd2 : x t ^ 2 + y t ^ 2 + z t ^ 2 ≤ D ^ 2 := by
      rw [hd]; exact pow_le_pow_left₀ (norm_nonneg _) (hD t ht) 2
    have hxa : |x t| ≤ a / 10 := by
      refine abs_le_of_sq_le_sq ?_ (by positivity)
      calc x t ^ 2 ≤ D ^ 2 := by nlinarith [sq_nonneg (y t), sq_nonneg (z t)]
        _ ≤ _ := pow_le_pow_left₀ hD0 hDa 2
    have hRp : 0 < ‖R t‖ := by
      have h1 := hnorm t
      have h2 : 0 < a + x t := by linarith [(abs_le.mp hxa).1]
      by_contra hc
      have : ‖R t‖ = 0 := le_antisymm (not_lt.mp hc) (norm_nonneg _)
      rw [this] at h1
      nlinarith [sq_nonneg (y t), sq_nonneg (z t)]
    obtain ⟨r, hr⟩ : ∃ r, r = ‖R t‖ := ⟨_, rfl⟩
    rw [← hr] at hRp ⊢
    have hn2 := hnorm t
    rw [← hr] at hn2
    have key := attraction_linear (u := x t / a) (v := y t / a) (w := z t / a) (e := D / a) (s := r / a)
      (by rw [div_le_iff₀ ha]; linarith) (by positivity)
      (by
        rw [div_pow, div_pow, div_pow, div_pow, ← add_div, ← add_div]
        gcongr)
      (by positivity) (by rw [div_pow, hn2]; field_simp)
    have hc : 0 ≤ n ^ 2 * a := by positivity
    have sc : ∀ k A B c : ℝ, |k| ≤ c * (D / a) ^ 2 → n ^ 2 * a * k = A → B = c * (n ^ 2 * (D ^ 2 / a)) → |A| ≤ B := by
      intro k A B c hk hA hB
      rw [← hA, hB, abs_mul, abs_of_nonneg hc]
      calc n ^ 2 * a * |k| ≤ n ^ 2 * a * (c * (D / a) ^ 2) := by gcongr
        _ = _ := by field_simp
    refine ⟨sc _ _ _ _ key.1 ?_ rfl, sc _ _ _ _ key.2.1 ?_ rfl, sc _ _ _ _ key.2.2 ?_ rfl⟩
    · rw [← hmu]; field_simp; ring
    · rw [← hmu]; field_simp
    · rw [← hmu]; field_simp
  have err := perturbed_error hn hpert (fun t ht => (hin t ht).1) (fun t ht => (hin t ht).2.1)
    (fun t ht => (hin t ht).2.2)
  rw [h0]
  obtain ⟨k, hk⟩ : ∃ k, k = D ^ 2 / a := ⟨_, rfl⟩
  have hk0 : 0 ≤ k := by rw [hk]; positivity
  rw [← hk] at err ⊢
  simp only [State.fromStateVector, State.new, Vec3.copy] at err ⊢
  obtain ⟨g1, g2, g3, g4, g5, g6⟩ := err
  have hT : 0 ≤ n ^ 2 * k * T ^ 2 := by positivity
  have hT' : 0 ≤ n ^ 2 * k * |T| := by positivity
  have eT : 50 * |n * T| * n * k = 50 * (n ^ 2 * k * |T|) := by rw [abs_mul, abs_of_pos hn]; ring
  have eT2 : 25 * (n * T) ^ 2 * k = 25 * (n ^ 2 * k * T ^ 2) := by ring
  rw [eT, eT2]
  refine ⟨g1.trans ?_, g2.trans ?_, g3.trans ?_, g4.trans ?_, g5.trans ?_, g6.trans ?_⟩ <;> linarith

/-! ## the hypotheses are met: a satellite on the same circular orbit, trailing by 1/20 rad -/

theorem trailing_twoBody {mu a n phi : ℝ} (ha : 0 < a) (hmu : n ^ 2 * a ^ 3 = mu)
    (b : OrthonormalBasis (Fin 3) ℝ Space) (I : Set ℝ) :
    TwoBody mu I (fun t => (a * cos (n * t - phi)) • b 0 + (a * sin (n * t - phi)) • b 1)
      (fun t => (-(a * n * sin (n * t - phi))) • b 0 + (a * n * cos (n * t - phi)) • b 1) := by
  obtain ⟨h00, h11, h01, h10, -, -⟩ := basis_inner b
  have hl : ∀ t : ℝ, HasDerivAt (fun t => n * t - phi) n t := fun t => by
    simpa using ((hasDerivAt_id t).const_mul n).sub_const phi
  have hnorm : ∀ t, ‖(a * cos (n * t - phi)) • b 0 + (a * sin (n * t - phi)) • b 1‖ = a := by
    intro t
    refine (pow_left_inj₀ (norm_nonneg _) ha.le two_ne_zero).mp ?_
    rw [← real_inner_self_eq_norm_sq]
    simp only [inner_add_left, inner_add_right, inner_smul_left, inner_smul_right, h00, h11, h01, h10, conj_trivial]
    linear_combination a ^ 2 * cos_sq_add_sin_sq (n * t - phi)
  constructor
  · intro t _
    refine ((((hl t).cos.const_mul a).smul_const (b 0)).add (((hl t).sin.const_mul a).smul_const (b 1))).congr_deriv ?_
    congr 2 <;> ring
  · intro t _
    rw [hnorm t, ← hmu]
    refine ((((hl t).sin.const_mul (a * n)).neg.smul_const (b 0)).add
      (((hl t).cos.const_mul (a * n)).smul_const (b 1))).congr_deriv ?_
    rw [smul_add, smul_smul, smul_smul]
    congr 2 <;> field_simp

theorem trailing_distance {a n phi : ℝ} (ha : 0 < a) (hp : 0 ≤ phi) (b : OrthonormalBasis (Fin 3) ℝ Space) (t : ℝ) :
    ‖(a * cos (n * t - phi)) • b 0 + (a * sin (n * t - phi)) • b 1 - circular b a n t‖ ≤ a * phi := by
  obtain ⟨h00, h11, h01, h10, -, -⟩ := basis_inner b
  refine (pow_le_pow_iff_left₀ (norm_nonneg _) (by positivity) two_ne_zero).mp ?_
  rw [← real_inner_self_eq_norm_sq]
  simp only [circular, radial, inner_sub_left, inner_sub_right, inner_add_left, inner_add_right, inner_smul_left,
    inner_smul_right, h00, h11, h01, h10, conj_trivial]
  have h1 := cos_sq_add_sin_sq (n * t - phi)
  have h2 := cos_sq_add_sin_sq (n * t)
  have h3 : cos phi = cos (n * t) * cos (n * t - phi) + sin (n * t) * sin (n * t - phi) := by
    rw [← cos_sub]; congr 1; ring
  have h4 := one_sub_sq_div_two_le_cos (x := phi)
  have h5 : a ^ 2 * (2 * (1 - cos phi)) ≤ (a * phi) ^ 2 := by
    rw [mul_pow]; gcongr; linarith
  refine le_trans (le_of_eq ?_) h5
  rw [h3]
  linear_combination a ^ 2 * h1 + a ^ 2 * h2

example (T : ℝ) : ∃ (s : State) (p : Hill) (b : OrthonormalBasis (Fin 3) ℝ Space) (R V : ℝ → Space),
    Hill.new s 42164 = .ok p ∧ TwoBody Earth.MU (Set.uIcc 0 T) R V ∧
    (∀ t ∈ Set.uIcc 0 T, ‖R t - circular b 42164 p.n t‖ ≤ 42164 * (1 / 20)) ∧
    p.state.vector =
      let d := R 0 - circular b 42164 p.n 0
      ⟨relX b p.n 0 d, relY b p.n 0 d, relZ b d,
        relX b p.n 0 (V 0) + p.n * relY b p.n 0 d, relY b p.n 0 (V 0) - p.n * (42164 + relX b p.n 0 d), relZ b (V 0)⟩ := by
  have ha : (0 : ℝ) < 42164 := by norm_num
  obtain ⟨p0, -, hn0, hm0, -, -⟩ := hill_new_ok (State.new ⟨0⟩ ⟨0, 0, 0⟩ ⟨0, 0, 0⟩) ha
  obtain ⟨n, hn⟩ : ∃ n, n = p0.n := ⟨_, rfl⟩
  rw [← hn] at hn0 hm0
  let b := EuclideanSpace.basisFun (Fin 3) ℝ
  let R := fun t : ℝ => ((42164 : ℝ) * cos (n * t - 1 / 20)) • b 0 + ((42164 : ℝ) * sin (n * t - 1 / 20)) • b 1
  let V := fun t : ℝ => (-((42164 : ℝ) * n * sin (n * t - 1 / 20))) • b 0 + ((42164 : ℝ) * n * cos (n * t - 1 / 20)) • b 1
  let d := R 0 - circular b 42164 n 0
  obtain ⟨p, hp, hpn, hpm, -, hps⟩ := hill_new_ok (State.new ⟨0⟩ ⟨relX b n 0 d, relY b n 0 d, relZ b d⟩
    ⟨relX b n 0 (V 0) + n * relY b n 0 d, relY b n 0 (V 0) - n * (42164 + relX b n 0 d), relZ b (V 0)⟩) ha
  have e : p.n = n := by
    refine (pow_left_inj₀ hpn.le hn0.le two_ne_zero).mp ?_
    exact mul_right_cancel₀ (by norm_num : (42164 : ℝ) ^ 3 ≠ 0) (hpm.trans hm0.symm)
  refine ⟨_, p, b, R, V, hp, trailing_twoBody ha hm0 b _, fun t _ => ?_, ?_⟩
  · rw [e]; exact trailing_distance ha (by norm_num) b t
  · rw [hps, e]; rfl

end Openspace
