import Verif.Spec.Decimal
import Verif.Model.Strings
import Verif.Lemmas.Double
import Mathlib.Data.Nat.Digits.Defs
import Mathlib.Data.List.Basic
import Mathlib.Tactic.IntervalCases

/-!
# C137: what a vector prints as
-/

namespace Openspace

open Spec

theorem digitChar_isDigit {d : ℕ} (h : d < 10) : (digitChar d).isDigit = true := by
  interval_cases d <;> decide

theorem digitChar_value {d : ℕ} (h : d < 10) : (digitChar d).toNat - '0'.toNat = d := by
  interval_cases d <;> decide

theorem natural_append (l : List Char) (c : Char) :
    natural (l ++ [c]) = 10 * natural l + (c.toNat - '0'.toNat) := by
  unfold natural
  rw [List.foldl_append]
  rfl

theorem natural_digits : ∀ (l : List ℕ), (∀ d ∈ l, d < 10) → natural ((l.map digitChar).reverse) = Nat.ofDigits 10 l
  | [], _ => rfl
  | d :: l, h => by
    rw [List.map_cons, List.reverse_cons, natural_append, natural_digits l fun x hx => h x (List.mem_cons_of_mem _ hx),
      digitChar_value (h d List.mem_cons_self), Nat.ofDigits_cons]
    push_cast
    ring

theorem natural_decimalDigits (n : ℕ) : natural (decimalDigits n) = n := by
  unfold decimalDigits
  split_ifs with h
  · subst h; rfl
  · rw [natural_digits _ fun d hd => Nat.digits_lt_base (by norm_num) hd, Nat.ofDigits_digits]

theorem decimalDigits_isDigit (n : ℕ) : ∀ c ∈ decimalDigits n, c.isDigit = true := by
  unfold decimalDigits
  split_ifs with h
  · simp
  · intro c hc
    simp only [List.mem_reverse, List.mem_map] at hc
    obtain ⟨d, hd, rfl⟩ := hc
    exact digitChar_isDigit (Nat.digits_lt_base (by norm_num) hd)

theorem decimalDigits_ne_nil (n : ℕ) : decimalDigits n ≠ [] := by
  unfold decimalDigits
  split_ifs with h
  · simp
  · simp [Nat.digits_ne_nil_iff_ne_zero.mpr h]

/-- a printed number is a numeral for a number at most half a unit in its last place away -/
theorem fixed6_decimal (x : ℝ) : ∃ v, Decimal 6 (fixed6 x) v ∧ |v - x| ≤ 1 / 2000000 := by
  obtain ⟨n, hn⟩ : ∃ n, n = (F64.roundEven (|x| * 1000000)).toNat := ⟨_, rfl⟩
  have hnn : 0 ≤ F64.roundEven (|x| * 1000000) := by
    have h := F64.roundEven_near (|x| * 1000000)
    rw [abs_le] at h
    have h0 := abs_nonneg x
    have : (-1 : ℝ) < F64.roundEven (|x| * 1000000) := by linarith [h.1]
    have : (-1 : ℤ) < F64.roundEven (|x| * 1000000) := by exact_mod_cast this
    omega
  have hnr : |(n : ℝ) - |x| * 1000000| ≤ 1 / 2 := by
    have h := F64.roundEven_near (|x| * 1000000)
    have h2 : ((n : ℤ) : ℝ) = F64.roundEven (|x| * 1000000) := by rw [hn, Int.toNat_of_nonneg hnn]
    rw [show (n : ℝ) = ((n : ℤ) : ℝ) by push_cast; rfl, h2]
    exact h
  have hm : n % 1000000 < 1000000 := Nat.mod_lt _ (by norm_num)
  have hv : ∀ m : ℕ, m < 1000000 →
      natural ([m / 100000, m / 10000 % 10, m / 1000 % 10, m / 100 % 10, m / 10 % 10, m % 10].map digitChar) = m := by
    intro m hm
    have e := natural_digits [m % 10, m / 10 % 10, m / 100 % 10, m / 1000 % 10, m / 10000 % 10, m / 100000] (by
      intro d hd; simp only [List.mem_cons, List.not_mem_nil, or_false] at hd; omega)
    rw [← List.map_reverse] at e
    simp only [List.reverse_cons, List.reverse_nil, List.nil_append, List.cons_append, Nat.ofDigits_cons,
      Nat.ofDigits_nil] at e
    rw [e]
    omega
  refine ⟨_, ⟨decide (x < 0), decimalDigits (n / 1000000),
    [n % 1000000 / 100000, n % 1000000 / 10000 % 10, n % 1000000 / 1000 % 10, n % 1000000 / 100 % 10,
      n % 1000000 / 10 % 10, n % 1000000 % 10].map digitChar, ?_, decimalDigits_ne_nil _, rfl, decimalDigits_isDigit _,
    ?_, rfl⟩, ?_⟩
  · unfold fixed6
    rw [← hn]
    by_cases h : x < 0 <;> simp [h]
  · intro c hc
    simp only [List.mem_map] at hc
    obtain ⟨d, hd, rfl⟩ := hc
    simp only [List.mem_cons, List.not_mem_nil, or_false] at hd
    exact digitChar_isDigit (by omega)
  · rw [natural_decimalDigits, hv _ hm]
    have hq : ((n / 1000000 : ℕ) : ℝ) + ((n % 1000000 : ℕ) : ℝ) / 10 ^ 6 = n / 1000000 := by
      have := Nat.div_add_mod n 1000000
      have h : (1000000 : ℝ) * ((n / 1000000 : ℕ) : ℝ) + ((n % 1000000 : ℕ) : ℝ) = n := by exact_mod_cast this
      linarith
    rw [hq]
    rw [abs_le] at hnr
    by_cases h : x < 0
    · rw [abs_of_neg h] at hnr
      simp only [h, decide_true, if_true]
      rw [abs_le]; constructor <;> linarith
    · rw [abs_of_nonneg (not_lt.mp h)] at hnr
      simp only [h, decide_false, Bool.false_eq_true, if_false]
      rw [abs_le]; constructor <;> linarith

theorem not_mem_of_isDigit {l : List Char} (h : ∀ c ∈ l, c.isDigit = true) {c : Char} (hc : c.isDigit = false) :
    c ∉ l := fun hm => by rw [h c hm] at hc; cases hc

/-- a numeral has no blanks -/
theorem Spec.Decimal.no_blank {k : ℕ} {s : List Char} {v : ℝ} (h : Decimal k s v) : ' ' ∉ s := by
  obtain ⟨neg, i, f, rfl, -, -, hi, hf, -⟩ := h
  have h1 := not_mem_of_isDigit hi (c := ' ') (by decide)
  have h2 := not_mem_of_isDigit hf (c := ' ') (by decide)
  cases neg <;> simp [h1, h2]

/-- a text is split at a character in one way if the character does not occur in the first part -/
theorem split_unique {a : Char} : ∀ {x x' z z' : List Char}, a ∉ x → a ∉ x' → x ++ a :: z = x' ++ a :: z' → x = x' ∧ z = z'
  | [], [], _, _, _, _, h => by simpa using h
  | [], c :: x', _, _, _, h2, h => by
    simp only [List.nil_append, List.cons_append, List.cons.injEq] at h
    exact absurd (by rw [h.1]; exact List.mem_cons_self) h2
  | c :: x, [], _, _, h1, _, h => by
    simp only [List.nil_append, List.cons_append, List.cons.injEq] at h
    exact absurd (by rw [h.1]; exact List.mem_cons_self) h1
  | c :: x, c' :: x', z, z', h1, h2, h => by
    simp only [List.cons_append, List.cons.injEq] at h
    have := split_unique (fun hm => h1 (List.mem_cons_of_mem _ hm)) (fun hm => h2 (List.mem_cons_of_mem _ hm)) h.2
    exact ⟨by rw [h.1, this.1], this.2⟩

/-- a numeral has one value -/
theorem Spec.Decimal.unique {k k' : ℕ} {s : List Char} {v v' : ℝ} (h : Decimal k s v) (h' : Decimal k' s v') : v = v' := by
  obtain ⟨neg, i, f, hs, hi0, hk, hi, hf, rfl⟩ := h
  obtain ⟨neg', i', f', hs', hi0', hk', hi', hf', rfl⟩ := h'
  have key : neg = neg' ∧ i ++ '.' :: f = i' ++ '.' :: f' := by
    rw [hs] at hs'
    obtain ⟨c, l, rfl⟩ := List.exists_cons_of_ne_nil hi0
    obtain ⟨c', l', rfl⟩ := List.exists_cons_of_ne_nil hi0'
    have hc := hi c List.mem_cons_self
    have hc' := hi' c' List.mem_cons_self
    have hm : '-'.isDigit = false := by decide
    cases neg <;> cases neg' <;> simp at hs' ⊢
    · exact hs'
    · rw [hs'.1, hm] at hc; cases hc
    · rw [← hs'.1, hm] at hc'; cases hc'
    · exact hs'
  obtain ⟨rfl, key⟩ := key
  have h1 := not_mem_of_isDigit hi (c := '.') (by decide)
  have h1' := not_mem_of_isDigit hi' (c := '.') (by decide)
  have h2 := not_mem_of_isDigit hf (c := '.') (by decide)
  have h2' := not_mem_of_isDigit hf' (c := '.') (by decide)
  obtain ⟨rfl, rfl⟩ := split_unique h1 h1' key
  rw [← hk, ← hk']

/-- whoever reads the first word of a text that begins with a printed number gets the number to half a unit in its last
place -/
theorem read_first {x : ℝ} {rest a rest' : List Char} {k : ℕ} {v : ℝ} (h : fixed6 x ++ ' ' :: rest = a ++ ' ' :: rest')
    (ha : Decimal k a v) : |v - x| ≤ 1 / 2000000 ∧ rest = rest' := by
  obtain ⟨u, hu, he⟩ := fixed6_decimal x
  obtain ⟨rfl, e⟩ := split_unique hu.no_blank ha.no_blank h
  exact ⟨by rw [ha.unique hu]; exact he, e⟩

/-- the same for the last word -/
theorem read_last {x : ℝ} {a : List Char} {k : ℕ} {v : ℝ} (h : fixed6 x = a) (ha : Decimal k a v) :
    |v - x| ≤ 1 / 2000000 := by
  obtain ⟨u, hu, he⟩ := fixed6_decimal x
  subst h
  rw [ha.unique hu]; exact he

/-- **C137.** `str(v)` of a three-component vector is three decimal numerals with six digits after the point, separated
by one blank; and however the text is read as three numerals separated by blanks, their values are those of the
components to half a unit in the sixth decimal place. -/
theorem C137_vector (v : Vec3) :
    (∃ a b c x y z, v.str.toList = a ++ ' ' :: b ++ ' ' :: c ∧ Decimal 6 a x ∧ Decimal 6 b y ∧ Decimal 6 c z) ∧
    ∀ (i j k : ℕ) (a b c : List Char) (x y z : ℝ), v.str.toList = a ++ ' ' :: b ++ ' ' :: c →
      Decimal i a x → Decimal j b y → Decimal k c z →
      |x - v.x| ≤ 1 / 2000000 ∧ |y - v.y| ≤ 1 / 2000000 ∧ |z - v.z| ≤ 1 / 2000000 := by
  have hs : v.str.toList = fixed6 v.x ++ ' ' :: fixed6 v.y ++ ' ' :: fixed6 v.z := by
    unfold Vec3.str; exact String.toList_ofList
  rw [hs]
  constructor
  · obtain ⟨x, hx, -⟩ := fixed6_decimal v.x
    obtain ⟨y, hy, -⟩ := fixed6_decimal v.y
    obtain ⟨z, hz, -⟩ := fixed6_decimal v.z
    exact ⟨_, _, _, x, y, z, rfl, hx, hy, hz⟩
  · intro i j k a b c x y z h hx hy hz
    simp only [List.append_assoc, List.cons_append] at h
    obtain ⟨e1, h⟩ := read_first h hx
    obtain ⟨e2, h⟩ := read_first h hy
    exact ⟨e1, e2, read_last h hz⟩

/-- **C137.** The same for `str(v)` of a six-component vector. -/
theorem C137_state (v : Vec6) :
    (∃ a b c d e f x y z vx vy vz,
      v.str.toList = a ++ ' ' :: b ++ ' ' :: c ++ ' ' :: d ++ ' ' :: e ++ ' ' :: f ∧
      Decimal 6 a x ∧ Decimal 6 b y ∧ Decimal 6 c z ∧ Decimal 6 d vx ∧ Decimal 6 e vy ∧ Decimal 6 f vz) ∧
    ∀ (k : Fin 6 → ℕ) (a b c d e f : List Char) (x y z vx vy vz : ℝ),
      v.str.toList = a ++ ' ' :: b ++ ' ' :: c ++ ' ' :: d ++ ' ' :: e ++ ' ' :: f →
      Decimal (k 0) a x → Decimal (k 1) b y → Decimal (k 2) c z →
      Decimal (k 3) d vx → Decimal (k 4) e vy → Decimal (k 5) f vz →
      |x - v.x| ≤ 1 / 2000000 ∧ |y - v.y| ≤ 1 / 2000000 ∧ |z - v.z| ≤ 1 / 2000000 ∧
      |vx - v.vx| ≤ 1 / 2000000 ∧ |vy - v.vy| ≤ 1 / 2000000 ∧ |vz - v.vz| ≤ 1 / 2000000 := by
  have hs : v.str.toList = fixed6 v.x ++ ' ' :: fixed6 v.y ++ ' ' :: fixed6 v.z ++ ' ' :: fixed6 v.vx ++
      ' ' :: fixed6 v.vy ++ ' ' :: fixed6 v.vz := by
    unfold Vec6.str; exact String.toList_ofList
  rw [hs]
  constructor
  · obtain ⟨x, hx, -⟩ := fixed6_decimal v.x
    obtain ⟨y, hy, -⟩ := fixed6_decimal v.y
    obtain ⟨z, hz, -⟩ := fixed6_decimal v.z
    obtain ⟨vx, hvx, -⟩ := fixed6_decimal v.vx
    obtain ⟨vy, hvy, -⟩ := fixed6_decimal v.vy
    obtain ⟨vz, hvz, -⟩ := fixed6_decimal v.vz
    exact ⟨_, _, _, _, _, _, x, y, z, vx, vy, vz, rfl, hx, hy, hz, hvx, hvy, hvz⟩
  · intro k a b c d e f x y z vx vy vz h hx hy hz hvx hvy hvz
    simp only [List.append_assoc, List.cons_append] at h
    obtain ⟨e1, h⟩ := read_first h hx
    obtain ⟨e2, h⟩ := read_first h hy
    obtain ⟨e3, h⟩ := read_first h hz
    obtain ⟨e4, h⟩ := read_first h hvx
    obtain ⟨e5, h⟩ := read_first h hvy
    exact ⟨e1, e2, e3, e4, e5, read_last h hvz⟩

/-- **C137.** Vectors that print alike agree to one unit in the sixth decimal place. -/
theorem C137_alike (v w : Vec3) (h : v.str = w.str) :
    |v.x - w.x| ≤ 1 / 1000000 ∧ |v.y - w.y| ≤ 1 / 1000000 ∧ |v.z - w.z| ≤ 1 / 1000000 := by
  obtain ⟨⟨a, b, c, x, y, z, hs, hx, hy, hz⟩, hv⟩ := C137_vector v
  obtain ⟨v1, v2, v3⟩ := hv _ _ _ a b c x y z hs hx hy hz
  obtain ⟨w1, w2, w3⟩ := (C137_vector w).2 _ _ _ a b c x y z (by rw [← h]; exact hs) hx hy hz
  rw [abs_le] at v1 v2 v3 w1 w2 w3
  refine ⟨?_, ?_, ?_⟩ <;> rw [abs_le] <;> constructor <;>
    linarith [v1.1, v1.2, v2.1, v2.2, v3.1, v3.2, w1.1, w1.2, w2.1, w2.2, w3.1, w3.2]

/-- the nearest microunit of -42164.1234567 ends in 457 -/
example : fixed6 (-42164.1234567) = "-42164.123457".toList := by
  have h : F64.roundEven (|(-42164.1234567 : ℝ)| * 1000000) = 42164123457 :=
    F64.roundEven_eq (by
      rw [abs_of_neg (show (-42164.1234567 : ℝ) < 0 by norm_num), abs_lt]; constructor <;> norm_num)
  unfold fixed6
  rw [h, if_pos (by norm_num)]
  decide

end Openspace
