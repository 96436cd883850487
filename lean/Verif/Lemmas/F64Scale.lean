import Verif.Lemmas.F64Op
import Verif.Lemmas.Sqrt
/-!
Multiplying all operands by powers of two: the operations of doubles give exactly the multiplied results, as long as
nothing leaves the range of the format.
-/
namespace R3D
namespace F64

/-- a finite double with its exponent moved by `k` -/
def pow2 (k : ℤ) : F64 → F64
  | .fin s m => .fin s (m * (2:ℚ) ^ k)
  | a => a

/-- a multiple of `2^n` of magnitude at most `2^M` -/
def Calm (n M : ℤ) (a : F64) : Prop := ∃ (s : Bool) (z : ℕ), a = .fin s (z * (2:ℚ) ^ n) ∧ (z : ℚ) * 2 ^ n ≤ 2 ^ M

theorem ilog2_scale {q : ℚ} (h : 0 < q) (k : ℤ) : ilog2 (q * (2:ℚ) ^ k) = ilog2 q + k := by
  obtain ⟨h1, h2⟩ := ilog2_spec h
  refine ilog2_of (mul_pos h (two_zpow_pos k)) ?_ ?_
  · rw [zpow_add₀ two_ne_zero]; exact mul_le_mul_of_nonneg_right h1 (two_zpow_pos k).le
  · rw [show ilog2 q + k + 1 = ilog2 q + 1 + k by ring, zpow_add₀ two_ne_zero]
    exact mul_lt_mul_of_pos_right h2 (two_zpow_pos k)

theorem rnd_scale_normal {q : ℚ} (h : 0 < q) (k : ℤ) (h1 : -1022 ≤ ilog2 q) (h2 : -1022 ≤ ilog2 q + k) :
    rnd (q * (2:ℚ) ^ k) = rnd q * 2 ^ k := by
  have hk := mul_pos h (two_zpow_pos k)
  have e1 : lsb q = ilog2 q - 52 := by unfold lsb; omega
  have e2 : lsb (q * (2:ℚ) ^ k) = ilog2 q - 52 + k := by unfold lsb; rw [ilog2_scale h]; omega
  rw [rnd, rnd, if_neg (not_le.2 h), if_neg (not_le.2 hk), e1, e2]
  rw [show q * (2:ℚ) ^ k * 2 ^ (-(ilog2 q - 52 + k)) = q * 2 ^ (-(ilog2 q - 52)) by
    rw [mul_assoc, ← zpow_add₀ two_ne_zero]; congr 2; ring]
  rw [zpow_add₀ two_ne_zero (ilog2 q - 52) k, mul_assoc]

theorem mult_down (z : ℕ) {n e : ℤ} (h : e ≤ n) : ∃ j : ℕ, (z:ℚ) * 2 ^ n = j * (2:ℚ) ^ e := by
  obtain ⟨d, hd⟩ : ∃ d : ℕ, n = d + e := ⟨(n - e).toNat, by omega⟩
  refine ⟨z * 2 ^ d, ?_⟩
  rw [hd, zpow_add₀ two_ne_zero]
  push_cast
  rw [zpow_natCast]; ring

theorem rnd_of_lsb (z : ℕ) {n : ℤ} (h : lsb ((z:ℚ) * 2 ^ n) ≤ n) : rnd ((z:ℚ) * 2 ^ n) = z * 2 ^ n := by
  rcases Nat.eq_zero_or_pos z with rfl | hz
  · simp [rnd]
  have hq : (0:ℚ) < z * 2 ^ n := mul_pos (by exact_mod_cast hz) (two_zpow_pos n)
  obtain ⟨j, hj⟩ := mult_down z h
  rw [rnd, if_neg (not_le.2 hq)]
  generalize lsb ((z:ℚ) * 2 ^ n) = e at *
  rw [hj, show (j:ℚ) * 2 ^ e * 2 ^ (-e) = ((j : ℤ) : ℚ) by
    rw [mul_assoc, ← zpow_add₀ two_ne_zero, add_neg_cancel, zpow_zero, mul_one]; rfl]
  rw [roundEven_int]; rfl

/-- rounding a multiple of `2^n` gives a multiple of `2^n` -/
theorem rnd_mult (z : ℕ) (n : ℤ) : ∃ w : ℕ, rnd ((z:ℚ) * 2 ^ n) = w * (2:ℚ) ^ n := by
  rcases Nat.eq_zero_or_pos z with rfl | hz
  · exact ⟨0, by simp [rnd]⟩
  have hq : (0:ℚ) < z * 2 ^ n := mul_pos (by exact_mod_cast hz) (two_zpow_pos n)
  rcases le_total (lsb ((z:ℚ) * 2 ^ n)) n with h | h
  · exact ⟨z, rnd_of_lsb z h⟩
  · rw [rnd, if_neg (not_le.2 hq)]
    have h0 := roundEven_nonneg (mul_pos hq (two_zpow_pos (-lsb ((z:ℚ) * 2 ^ n)))).le
    obtain ⟨i, hi⟩ := Int.eq_ofNat_of_zero_le h0
    rw [hi]
    exact mult_down i h

theorem rnd_scale (z : ℕ) {n k : ℤ} (hn : -1074 ≤ n) (hk : -1074 ≤ n + k) :
    rnd ((z:ℚ) * 2 ^ n * 2 ^ k) = rnd ((z:ℚ) * 2 ^ n) * 2 ^ k := by
  rcases Nat.eq_zero_or_pos z with rfl | hz
  · simp [rnd]
  have hq : (0:ℚ) < z * 2 ^ n := mul_pos (by exact_mod_cast hz) (two_zpow_pos n)
  by_cases h : -1022 ≤ ilog2 ((z:ℚ) * 2 ^ n) ∧ -1022 ≤ ilog2 ((z:ℚ) * 2 ^ n) + k
  · exact rnd_scale_normal hq k h.1 h.2
  · have e : (z:ℚ) * 2 ^ n * 2 ^ k = z * 2 ^ (n + k) := by rw [zpow_add₀ two_ne_zero, mul_assoc]
    have hl := ilog2_scale hq k
    rw [rnd_of_lsb z (by unfold lsb; omega), e, rnd_of_lsb z (by rw [← e]; unfold lsb; omega), e.symm]

theorem pow_le {a b : ℤ} (h : a ≤ b) : (2:ℚ) ^ a ≤ 2 ^ b := zpow_le_zpow_right₀ one_le_two h

theorem calm_round (s : Bool) (z : ℕ) {n M : ℤ} (h : (z:ℚ) * 2 ^ n ≤ 2 ^ M) (hM : -1074 ≤ M) (hM' : M ≤ 1023) :
    Calm n M (round s ((z:ℚ) * 2 ^ n)) := by
  rw [round_fin s (h.trans (pow_le hM'))]
  obtain ⟨w, hw⟩ := rnd_mult z n
  refine ⟨s, w, by rw [hw], ?_⟩
  rw [← hw]
  have := rnd_mono h
  rwa [rnd_exact (dyad_pow2 hM)] at this

theorem round_pow2 (s : Bool) (z : ℕ) {n M k : ℤ} (h : (z:ℚ) * 2 ^ n ≤ 2 ^ M) (hn : -1074 ≤ n) (hk : -1074 ≤ n + k)
    (hM : M ≤ 1023) (hM' : M + k ≤ 1023) : round s ((z:ℚ) * 2 ^ n * 2 ^ k) = pow2 k (round s ((z:ℚ) * 2 ^ n)) := by
  have h2 : (z:ℚ) * 2 ^ n * 2 ^ k ≤ 2 ^ (1023 : ℤ) := by
    refine (mul_le_mul_of_nonneg_right h (two_zpow_pos k).le).trans ?_
    rw [← zpow_add₀ two_ne_zero]; exact pow_le hM'
  rw [round_fin s h2, round_fin s (h.trans (pow_le hM)), rnd_scale z hn hk]
  rfl

theorem ofRat_pow2 (i : ℤ) {n M k : ℤ} (h : |(i:ℚ) * 2 ^ n| ≤ 2 ^ M) (hn : -1074 ≤ n) (hk : -1074 ≤ n + k) (hM0 : -1074 ≤ M)
    (hM : M ≤ 1023) (hM' : M + k ≤ 1023) :
    ofRat ((i:ℚ) * 2 ^ n * 2 ^ k) = pow2 k (ofRat ((i:ℚ) * 2 ^ n)) ∧ Calm n M (ofRat ((i:ℚ) * 2 ^ n)) := by
  have hp := two_zpow_pos k
  have hpn := two_zpow_pos n
  have e : |(i:ℚ) * 2 ^ n| = (i.natAbs : ℚ) * 2 ^ n := by
    rw [abs_mul, abs_of_pos hpn, ← Int.cast_natCast i.natAbs, Int.natCast_natAbs, Int.cast_abs]
  rw [e] at h
  unfold ofRat
  by_cases hi : (i:ℚ) * 2 ^ n < 0
  · have hi' : (i:ℚ) * 2 ^ n * 2 ^ k < 0 := mul_neg_of_neg_of_pos hi hp
    rw [abs_of_neg hi] at e
    rw [if_pos hi, if_pos hi', ← neg_mul, e]
    exact ⟨round_pow2 true _ h hn hk hM hM', calm_round true _ h hM0 hM⟩
  · have hi' : ¬ (i:ℚ) * 2 ^ n * 2 ^ k < 0 := not_lt.2 (mul_nonneg (not_lt.1 hi) hp.le)
    rw [abs_of_nonneg (not_lt.1 hi)] at e
    rw [if_neg hi, if_neg hi', e]
    exact ⟨round_pow2 false _ h hn hk hM hM', calm_round false _ h hM0 hM⟩

theorem pow2_neg (k : ℤ) (a : F64) : pow2 k (-a) = -pow2 k a := by
  show pow2 k (F64.neg a) = F64.neg (pow2 k a)
  cases a <;> rfl
theorem pow2_abs (k : ℤ) (a : F64) : Scalar.abs (pow2 k a) = pow2 k (Scalar.abs a) := by
  show F64.abs (pow2 k a) = pow2 k (F64.abs a)
  cases a <;> rfl
theorem val_pow2 (s : Bool) (m : ℚ) (k : ℤ) : val s (m * 2 ^ k) = val s m * 2 ^ k := by cases s <;> simp [val]
theorem pow2_lt (k : ℤ) (a b : F64) : (Scalar.lt (pow2 k a) (pow2 k b)) = Scalar.lt a b := by
  show F64.lt (pow2 k a) (pow2 k b) = F64.lt a b
  cases a <;> cases b <;> try rfl
  simp only [pow2, F64.lt, val_pow2, mul_lt_mul_iff_left₀ (two_zpow_pos k)]
theorem pow2_eq (k : ℤ) (a b : F64) : (Scalar.eq (pow2 k a) (pow2 k b)) = Scalar.eq a b := by
  show F64.eq (pow2 k a) (pow2 k b) = F64.eq a b
  cases a <;> cases b <;> try rfl
  simp only [pow2, F64.eq, val_pow2, mul_left_inj' (two_zpow_pos k).ne']
theorem pow2_le (k : ℤ) (a b : F64) : (Scalar.le (pow2 k a) (pow2 k b)) = Scalar.le a b := by
  have h1 := pow2_lt k a b
  have h2 := pow2_eq k a b
  show (F64.lt (pow2 k a) (pow2 k b) || F64.eq (pow2 k a) (pow2 k b)) = (F64.lt a b || F64.eq a b)
  exact congrArg₂ _ h1 h2
theorem pow2_zero (k : ℤ) : pow2 k (Scalar.zero : F64) = Scalar.zero := by
  have : (Scalar.zero : F64) = .fin false 0 := by decide +kernel
  rw [this]; simp [pow2]
theorem pow2_ite (k : ℤ) (c : Bool) (a b : F64) : pow2 k (if c then a else b) = if c then pow2 k a else pow2 k b := by cases c <;> rfl

theorem Calm.mono {n M M' : ℤ} {a : F64} (h : Calm n M a) (hM : M ≤ M') : Calm n M' a := by
  obtain ⟨s, z, rfl, hz⟩ := h; exact ⟨s, z, rfl, hz.trans (pow_le hM)⟩
theorem Calm.down {n n' M : ℤ} {a : F64} (h : Calm n M a) (hn : n' ≤ n) : Calm n' M a := by
  obtain ⟨s, z, rfl, hz⟩ := h
  obtain ⟨j, hj⟩ := mult_down z hn
  exact ⟨s, j, by rw [hj], by rw [← hj]; exact hz⟩
theorem Calm.neg {n M : ℤ} {a : F64} (h : Calm n M a) : Calm n M (-a) := by
  obtain ⟨s, z, rfl, hz⟩ := h; exact ⟨!s, z, rfl, hz⟩
theorem Calm.abs {n M : ℤ} {a : F64} (h : Calm n M a) : Calm n M (Scalar.abs a) := by
  obtain ⟨s, z, rfl, hz⟩ := h; exact ⟨false, z, rfl, hz⟩
theorem Calm.zero (n M : ℤ) : Calm n M (Scalar.zero : F64) := by
  have : (Scalar.zero : F64) = .fin false 0 := by decide +kernel
  rw [this]; exact ⟨false, 0, by simp, by simpa using (two_zpow_pos M).le⟩

theorem add_pow2 {n M k : ℤ} {a b : F64} (ha : Calm n M a) (hb : Calm n M b) (hn : -1074 ≤ n) (hk : -1074 ≤ n + k)
    (hM0 : -1074 ≤ M) (hM : M + 1 ≤ 1023) (hM' : M + 1 + k ≤ 1023) :
    pow2 k a + pow2 k b = pow2 k (a + b) ∧ Calm n (M + 1) (a + b) := by
  obtain ⟨s, z, rfl, hz⟩ := ha
  obtain ⟨t, w, rfl, hw⟩ := hb
  have hz0 : (0:ℚ) ≤ z * 2 ^ n := mul_nonneg (Nat.cast_nonneg _) (two_zpow_pos n).le
  have hw0 : (0:ℚ) ≤ w * 2 ^ n := mul_nonneg (Nat.cast_nonneg _) (two_zpow_pos n).le
  obtain ⟨i, hi⟩ : ∃ i : ℤ, val s ((z:ℚ) * 2 ^ n) + val t ((w:ℚ) * 2 ^ n) = (i:ℚ) * 2 ^ n := by
    cases s <;> cases t <;> simp only [val, if_true, if_false, Bool.false_eq_true]
    · exact ⟨z + w, by push_cast; ring⟩
    · exact ⟨z - w, by push_cast; ring⟩
    · exact ⟨-z + w, by push_cast; ring⟩
    · exact ⟨-z - w, by push_cast; ring⟩
  have hb : |(i:ℚ) * 2 ^ n| ≤ 2 ^ (M + 1) := by
    rw [← hi, zpow_add_one₀ two_ne_zero]
    rw [abs_le]
    cases s <;> cases t <;> simp only [val, if_true, if_false, Bool.false_eq_true] <;> constructor <;> linarith
  obtain ⟨h1, h2⟩ := ofRat_pow2 (k := k) i hb hn hk (by omega) hM hM'
  have e : val s ((z:ℚ) * 2 ^ n * 2 ^ k) + val t ((w:ℚ) * 2 ^ n * 2 ^ k) = (i:ℚ) * 2 ^ n * 2 ^ k := by
    rw [val_pow2 s (z * 2 ^ n), val_pow2 t (w * 2 ^ n), ← add_mul, hi]
  constructor
  · show F64.add (.fin s _) (.fin t _) = pow2 k (F64.add (.fin s _) (.fin t _))
    simp only [F64.add, e, hi]
    by_cases h0 : (i:ℚ) * 2 ^ n = 0
    · rw [if_pos (by rw [h0, zero_mul]), if_pos h0]; simp [pow2]
    · rw [if_neg (mul_ne_zero h0 (two_zpow_pos k).ne'), if_neg h0, h1]
  · show Calm n (M + 1) (F64.add (.fin s _) (.fin t _))
    simp only [F64.add, hi]
    split_ifs
    · exact ⟨s && t, 0, by simp, by simpa using (two_zpow_pos _).le⟩
    · exact h2

theorem sub_pow2 {n M k : ℤ} {a b : F64} (ha : Calm n M a) (hb : Calm n M b) (hn : -1074 ≤ n) (hk : -1074 ≤ n + k)
    (hM0 : -1074 ≤ M) (hM : M + 1 ≤ 1023) (hM' : M + 1 + k ≤ 1023) :
    pow2 k a - pow2 k b = pow2 k (a - b) ∧ Calm n (M + 1) (a - b) := by
  have e : ∀ x y : F64, x - y = x + -y := fun _ _ => rfl
  rw [e, e, ← pow2_neg]
  exact add_pow2 ha hb.neg hn hk hM0 hM hM'

theorem mul_pow2 {n n' M M' k k' : ℤ} {a b : F64} (ha : Calm n M a) (hb : Calm n' M' b) (hn : -1074 ≤ n + n')
    (hk : -1074 ≤ n + n' + (k + k')) (hM0 : -1074 ≤ M + M') (hM : M + M' ≤ 1023) (hM' : M + M' + (k + k') ≤ 1023) :
    pow2 k a * pow2 k' b = pow2 (k + k') (a * b) ∧ Calm (n + n') (M + M') (a * b) := by
  obtain ⟨s, z, rfl, hz⟩ := ha
  obtain ⟨t, w, rfl, hw⟩ := hb
  have hw0 : (0:ℚ) ≤ w * 2 ^ n' := mul_nonneg (Nat.cast_nonneg _) (two_zpow_pos n').le
  have e : (z:ℚ) * 2 ^ n * (w * 2 ^ n') = ((z * w : ℕ) : ℚ) * 2 ^ (n + n') := by
    rw [zpow_add₀ two_ne_zero]; push_cast; ring
  have hb : ((z * w : ℕ) : ℚ) * 2 ^ (n + n') ≤ 2 ^ (M + M') := by
    rw [← e, zpow_add₀ two_ne_zero]
    exact mul_le_mul hz hw hw0 (two_zpow_pos M).le
  constructor
  · show round (xor s t) ((z:ℚ) * 2 ^ n * 2 ^ k * (w * 2 ^ n' * 2 ^ k')) = pow2 (k + k') (round (xor s t) (z * 2 ^ n * (w * 2 ^ n')))
    rw [e, ← round_pow2 (xor s t) (z * w) hb hn hk hM hM', ← e, zpow_add₀ two_ne_zero k k']
    congr 1; ring
  · show Calm _ _ (round (xor s t) (z * 2 ^ n * (w * 2 ^ n')))
    rw [e]
    exact calm_round _ _ hb hM0 hM

theorem lit_two_fin : (Scalar.lit 2 : F64) = .fin false 2 := by decide +kernel
theorem lit_half_fin : (Scalar.lit (1/2) : F64) = .fin false (1/2) := by decide +kernel

/-- division by two -/
theorem half_pow2 {n M k : ℤ} {a : F64} (ha : Calm n M a) (hn : -1073 ≤ n) (hk : -1073 ≤ n + k) (hM0 : -1074 ≤ M) (hM : M ≤ 1023) (hM' : M + k ≤ 1023) :
    pow2 k a / Scalar.lit 2 = pow2 k (a / Scalar.lit 2) ∧ Calm (n - 1) M (a / Scalar.lit 2) := by
  obtain ⟨s, z, rfl, hz⟩ := ha
  rw [lit_two_fin]
  have e : (z:ℚ) * 2 ^ n / 2 = z * 2 ^ (n - 1) := by rw [zpow_sub_one₀ two_ne_zero]; ring
  have hz0 : (0:ℚ) ≤ z * 2 ^ n := mul_nonneg (Nat.cast_nonneg _) (two_zpow_pos n).le
  have hb : (z:ℚ) * 2 ^ (n - 1) ≤ 2 ^ M := by rw [← e]; linarith
  have d : ∀ x : ℚ, F64.div (.fin s x) (.fin false 2) = round s (x / 2) := by intro x; simp [F64.div]
  constructor
  · show F64.div (.fin s _) (.fin false 2) = pow2 k (F64.div (.fin s _) (.fin false 2))
    rw [d, d, e, ← round_pow2 s z hb (by omega) (by omega) hM hM', ← e]
    congr 1; ring
  · show Calm _ _ (F64.div (.fin s _) (.fin false 2))
    rw [d, e]; exact calm_round s z hb hM0 hM

/-- multiplication by one half and by two -/
theorem lit_mul_pow2 (c : ℚ) (hc : c = 1/2 ∨ c = 2) {n M k : ℤ} {a : F64} (ha : Calm n M a) (hn : -1073 ≤ n) (hk : -1073 ≤ n + k)
    (hM0 : -1073 ≤ M) (hM : M + 1 ≤ 1023) (hM' : M + 1 + k ≤ 1023) :
    Scalar.lit c * pow2 k a = pow2 k (Scalar.lit c * a) ∧ Calm (n - 1) (M + 1) (Scalar.lit c * a) := by
  have h : ∃ g : ℤ, -1 ≤ g ∧ g ≤ 1 ∧ (Scalar.lit c : F64) = .fin false ((1:ℕ) * (2:ℚ) ^ g) := by
    rcases hc with rfl | rfl
    · exact ⟨-1, by omega, by omega, by rw [lit_half_fin]; norm_num⟩
    · exact ⟨1, by omega, by omega, by rw [lit_two_fin]; norm_num⟩
  obtain ⟨g, g1, g2, hg⟩ := h
  have hl : Calm g g (Scalar.lit c) := ⟨false, 1, hg, by simp⟩
  obtain ⟨h1, h2⟩ := mul_pow2 (k := 0) (k' := k) hl ha (by omega) (by omega) (by omega) (by omega) (by omega)
  have h3 : pow2 0 (Scalar.lit c) = Scalar.lit c := by rw [hg]; simp [pow2]
  rw [h3, zero_add] at h1
  exact ⟨h1, (h2.mono (by omega)).down (by omega)⟩

/-- numbers that compare alike with all multiples of half of the last bit are rounded alike -/
theorem rnd_congr {x y : ℚ} (hx : 0 < x) (hy : 0 < y) (hl : lsb x = lsb y)
    (h1 : ∀ j : ℕ, (j:ℚ) * 2 ^ (lsb x - 1) ≤ x ↔ (j:ℚ) * 2 ^ (lsb x - 1) ≤ y)
    (h2 : ∀ j : ℕ, x ≤ (j:ℚ) * 2 ^ (lsb x - 1) ↔ y ≤ (j:ℚ) * 2 ^ (lsb x - 1)) : rnd x = rnd y := by
  rw [rnd, rnd, if_neg (not_le.2 hx), if_neg (not_le.2 hy), ← hl]
  congr 2
  set e := lsb x with he
  have hp := two_zpow_pos (-e)
  have hpos := two_zpow_pos e
  have c1 : ∀ (t u : ℚ), t ≤ u * 2 ^ (-e) ↔ t * 2 ^ e ≤ u := by
    intro t u; rw [zpow_neg, ← div_eq_mul_inv, le_div_iff₀ hpos]
  have c2 : ∀ (t u : ℚ), u * 2 ^ (-e) ≤ t ↔ u ≤ t * 2 ^ e := by
    intro t u; rw [zpow_neg, ← div_eq_mul_inv, div_le_iff₀ hpos]
  have hh : ∀ j : ℕ, ((j:ℚ) / 2) * 2 ^ e = j * 2 ^ (e - 1) := by
    intro j; rw [zpow_sub_one₀ two_ne_zero]; ring
  have d1 : ∀ j : ℕ, (j:ℚ) / 2 ≤ x * 2 ^ (-e) ↔ (j:ℚ) / 2 ≤ y * 2 ^ (-e) := by
    intro j; rw [c1, c1, hh]; exact h1 j
  have d2 : ∀ j : ℕ, x * 2 ^ (-e) ≤ (j:ℚ) / 2 ↔ y * 2 ^ (-e) ≤ (j:ℚ) / 2 := by
    intro j; rw [c2, c2, hh]; exact h2 j
  have x0 : 0 < x * 2 ^ (-e) := mul_pos hx hp
  have y0 : 0 < y * 2 ^ (-e) := mul_pos hy hp
  generalize x * 2 ^ (-e) = X at *
  generalize y * 2 ^ (-e) = Y at *
  have fl : ⌊X⌋ = ⌊Y⌋ := by
    have a : ∀ {X Y : ℚ}, 0 < X → (∀ j : ℕ, (j:ℚ) / 2 ≤ X → (j:ℚ) / 2 ≤ Y) → ⌊X⌋ ≤ ⌊Y⌋ := by
      intro X Y hX hj
      obtain ⟨i, hi⟩ := Int.eq_ofNat_of_zero_le (Int.floor_nonneg.2 hX.le)
      rw [hi, Int.le_floor]
      have := hj (2 * i) (by
        have := Int.floor_le X
        rw [hi] at this
        push_cast at this ⊢; linarith)
      push_cast at this ⊢; linarith
    exact le_antisymm (a x0 fun j h => (d1 j).1 h) (a y0 fun j h => (d1 j).2 h)
  obtain ⟨i, hi⟩ := Int.eq_ofNat_of_zero_le (Int.floor_nonneg.2 x0.le)
  have k1 := d1 (2 * i + 1)
  have k2 := d2 (2 * i + 1)
  rw [roundEven_eq, roundEven_eq, ← fl, hi]
  have q1 : X - ((i:ℤ):ℚ) < 1 / 2 ↔ Y - ((i:ℤ):ℚ) < 1 / 2 := by
    rw [← not_le, ← not_le, not_iff_not]
    push_cast at k1 ⊢
    constructor <;> intro h
    · have := k1.1 (by linarith); linarith
    · have := k1.2 (by linarith); linarith
  have q2 : 1 / 2 < X - ((i:ℤ):ℚ) ↔ 1 / 2 < Y - ((i:ℤ):ℚ) := by
    rw [← not_le, ← not_le, not_iff_not]
    push_cast at k2 ⊢
    constructor <;> intro h
    · have := k2.1 (by linarith); linarith
    · have := k2.2 (by linarith); linarith
  simp only [q1, q2]

theorem hlog_scale {q : ℚ} (h : 0 < q) (k : ℤ) : hlog (q * (2:ℚ) ^ (2 * k)) = hlog q + k := by
  unfold hlog; rw [ilog2_scale h]; omega

/-- the square root -/
theorem sqrt_pow2 {n M k : ℤ} {a : F64} (ha : Calm n M a) (hn : -1000 ≤ n) (hk : -1000 ≤ n + 2 * k) (hM : M ≤ 1000) (hM' : M + 2 * k ≤ 1000) :
    Scalar.sqrt (pow2 (2 * k) a) = pow2 k (Scalar.sqrt a) := by
  obtain ⟨s, z, rfl, hz⟩ := ha
  show F64.sqrt (.fin s _) = pow2 k (F64.sqrt (.fin s _))
  rcases Nat.eq_zero_or_pos z with rfl | hz0
  · simp [F64.sqrt, pow2]
  have hq : (0:ℚ) < z * 2 ^ n := mul_pos (by exact_mod_cast hz0) (two_zpow_pos n)
  have hz1 : (2:ℚ) ^ n ≤ z * 2 ^ n := by
    have : (1:ℚ) ≤ z := by exact_mod_cast hz0
    nlinarith [two_zpow_pos n]
  generalize hm : (z:ℚ) * 2 ^ n = m at *
  have hm' := mul_pos hq (two_zpow_pos (2 * k))
  cases s with
  | true => simp [F64.sqrt, hq.ne', hm'.ne', pow2]
  | false =>
    rw [sqrt_fin_pos hq, sqrt_fin_pos hm']
    obtain ⟨a1, a2⟩ := sqrtArg_pos_bounds hq
    obtain ⟨b1, b2⟩ := sqrtArg_pos_bounds hm'
    rw [hlog_scale hq] at b1 b2
    have i1 : n ≤ ilog2 m := by
      have h := hz1.trans_lt (ilog2_spec hq).2
      rw [zpow_lt_zpow_iff_right₀ one_lt_two] at h; omega
    have i2 : ilog2 m ≤ M := by
      have h := (ilog2_spec hq).1.trans hz
      rwa [zpow_le_zpow_iff_right₀ one_lt_two] at h
    have hl : hlog m = ilog2 m / 2 := rfl
    have p1 := sqrtArg_pos hq
    have p2 := sqrtArg_pos hm'
    have g1 := ilog2_of p1 a1 a2
    have g2 := ilog2_of p2 b1 b2
    have key : rnd (sqrtArg (m * 2 ^ (2 * k))) = rnd (sqrtArg m) * 2 ^ k := by
      rw [← rnd_scale_normal p1 k (by omega) (by omega)]
      have py := mul_pos p1 (two_zpow_pos k)
      have l1 : lsb (sqrtArg (m * 2 ^ (2 * k))) = hlog m + k - 52 := by unfold lsb; omega
      have l2 : lsb (sqrtArg m * 2 ^ k) = hlog m + k - 52 := by unfold lsb; rw [ilog2_scale p1]; omega
      have kk : (2:ℚ) ^ (2 * k) = 2 ^ k * 2 ^ k := by rw [two_mul, zpow_add₀ two_ne_zero]
      have kp := two_zpow_pos k
      have cmp : ∀ j : ℕ, ((j:ℚ) * 2 ^ (hlog m + k - 52 - 1) ≤ sqrtArg (m * 2 ^ (2 * k)) ↔ (j:ℚ) * 2 ^ (hlog m + k - 52 - 1) ≤ sqrtArg m * 2 ^ k) ∧
          (sqrtArg (m * 2 ^ (2 * k)) ≤ (j:ℚ) * 2 ^ (hlog m + k - 52 - 1) ↔ sqrtArg m * 2 ^ k ≤ (j:ℚ) * 2 ^ (hlog m + k - 52 - 1)) := by
        intro j
        have hs1 : -sqrtK (m * 2 ^ (2 * k)) ≤ hlog m + k - 52 - 1 := by
          have := hlog_scale hq k
          unfold hlog at this; unfold sqrtK; unfold hlog; omega
        have hs2 : -sqrtK m ≤ hlog m - 52 - 1 := by unfold sqrtK hlog; omega
        obtain ⟨j1, hj1⟩ := mult_k (m * 2 ^ (2 * k)) j hs1
        obtain ⟨j2, hj2⟩ := mult_k m j hs2
        obtain ⟨u1, u2⟩ := sqrtArg_cmp hm' j1 hj1
        obtain ⟨v1, v2⟩ := sqrtArg_cmp hq j2 hj2
        have eb : (j:ℚ) * 2 ^ (hlog m + k - 52 - 1) = j * 2 ^ (hlog m - 52 - 1) * 2 ^ k := by
          rw [mul_assoc, ← zpow_add₀ two_ne_zero]; congr 2; ring
        rw [← u1, ← u2, eb, mul_le_mul_iff_left₀ kp, mul_le_mul_iff_left₀ kp, ← v1, ← v2, kk]
        generalize (j:ℚ) * 2 ^ (hlog m - 52 - 1) = b
        have e2 : b * 2 ^ k * (b * 2 ^ k) = b * b * (2 ^ k * 2 ^ k) := by ring
        rw [e2]
        have kkp := mul_pos kp kp
        exact ⟨mul_le_mul_iff_left₀ kkp, mul_le_mul_iff_left₀ kkp⟩
      refine rnd_congr p2 py (l1.trans l2.symm) (fun j => ?_) (fun j => ?_)
      · rw [l1]; exact (cmp j).1
      · rw [l1]; exact (cmp j).2
    have o1 : sqrtArg m ≤ 2 ^ (1023 : ℤ) := a2.le.trans (pow_le (by omega))
    have o2 : sqrtArg (m * 2 ^ (2 * k)) ≤ 2 ^ (1023 : ℤ) := b2.le.trans (pow_le (by omega))
    rw [round_fin _ o1, round_fin _ o2, key]
    rfl

/-- the root stays on a grid -/
theorem sqrt_calm {n M : ℤ} {a : F64} (ha : Calm n M a) (hs : ∃ m, a = .fin false m) (hn : -1000 ≤ n) (hM : M ≤ 1000) :
    Calm (n / 2 - 52) (M / 2 + 1) (Scalar.sqrt a) := by
  obtain ⟨s, z, rfl, hz⟩ := ha
  obtain ⟨m', hm'⟩ := hs
  cases hm'
  show Calm _ _ (F64.sqrt (.fin false _))
  rcases Nat.eq_zero_or_pos z with rfl | hz0
  · exact ⟨false, 0, by simp [F64.sqrt], by simpa using (two_zpow_pos _).le⟩
  have hq : (0:ℚ) < z * 2 ^ n := mul_pos (by exact_mod_cast hz0) (two_zpow_pos n)
  have hz1 : (2:ℚ) ^ n ≤ z * 2 ^ n := by
    have : (1:ℚ) ≤ z := by exact_mod_cast hz0
    nlinarith [two_zpow_pos n]
  generalize hm : (z:ℚ) * 2 ^ n = m at *
  rw [sqrt_fin_pos hq]
  obtain ⟨a1, a2⟩ := sqrtArg_pos_bounds hq
  have i1 : n ≤ ilog2 m := by
    have h := hz1.trans_lt (ilog2_spec hq).2
    rw [zpow_lt_zpow_iff_right₀ one_lt_two] at h; omega
  have i2 : ilog2 m ≤ M := by
    have h := (ilog2_spec hq).1.trans hz
    rwa [zpow_le_zpow_iff_right₀ one_lt_two] at h
  have hl : hlog m = ilog2 m / 2 := rfl
  have p1 := sqrtArg_pos hq
  have g1 := ilog2_of p1 a1 a2
  rw [round_fin _ (a2.le.trans (pow_le (by omega)))]
  have hr : ∃ w : ℕ, rnd (sqrtArg m) = w * (2:ℚ) ^ (n / 2 - 52) := by
    rw [rnd, if_neg (not_le.2 p1)]
    obtain ⟨i, hi⟩ := Int.eq_ofNat_of_zero_le (roundEven_nonneg (mul_pos p1 (two_zpow_pos (-lsb (sqrtArg m)))).le)
    rw [hi]
    exact mult_down i (by unfold lsb; omega)
  obtain ⟨w, hw⟩ := hr
  refine ⟨false, w, by rw [hw], ?_⟩
  rw [← hw]
  have := rnd_mono (a2.le.trans (pow_le (show hlog m + 1 ≤ M / 2 + 1 by omega)))
  rwa [rnd_exact (dyad_pow2 (by omega))] at this

/-- multiplying with a power of two only moves the exponent -/
theorem twoPow_mul {n M k : ℤ} {a : F64} (ha : Calm n M a) (hr : Rep a) (hn : -1074 ≤ n) (hk : -1074 ≤ n + k)
    (hM : M ≤ 1023) (hM' : M + k ≤ 1023) : F64.fin false ((2:ℚ) ^ k) * a = pow2 k a := by
  obtain ⟨s, z, rfl, hz⟩ := ha
  show round (xor false s) (2 ^ k * (z * 2 ^ n)) = _
  rw [Bool.false_xor, mul_comm, round_pow2 s z hz hn hk hM hM', round_exact s hr]

theorem pow2_pow2 (k l : ℤ) (a : F64) : pow2 k (pow2 l a) = pow2 (k + l) a := by
  cases a <;> try rfl
  simp only [pow2, zpow_add₀ (two_ne_zero (α := ℚ))]
  congr 1; ring
theorem Calm.pow2 {n M k : ℤ} {a : F64} (h : Calm n M a) : Calm (n + k) (M + k) (pow2 k a) := by
  obtain ⟨s, z, rfl, hz⟩ := h
  refine ⟨s, z, by simp [F64.pow2, zpow_add₀, mul_assoc], ?_⟩
  rw [zpow_add₀ two_ne_zero, zpow_add₀ two_ne_zero, ← mul_assoc]
  exact mul_le_mul_of_nonneg_right hz (two_zpow_pos k).le

/-- a multiple of `2^n` of magnitude at most `j * 2^c` -/
def Most (n c : ℤ) (j : ℕ) (a : F64) : Prop := ∃ (s : Bool) (z : ℕ), a = .fin s (z * (2:ℚ) ^ n) ∧ (z : ℚ) * 2 ^ n ≤ j * 2 ^ c

theorem Most.calm {n c : ℤ} {j : ℕ} {a : F64} (h : Most n c j a) (hj : j ≤ 2 ^ 53) : Calm n (c + 53) a := by
  obtain ⟨s, z, rfl, hz⟩ := h
  refine ⟨s, z, rfl, hz.trans ?_⟩
  rw [add_comm, zpow_add₀ two_ne_zero]
  refine mul_le_mul_of_nonneg_right ?_ (two_zpow_pos c).le
  exact_mod_cast hj

theorem ofRat_mag {v B : ℚ} {s : Bool} {m : ℚ} (h : ofRat v = .fin s m) (hv : |v| ≤ B) (hB : Dyad B) : m ≤ B := by
  have key : ∀ t : Bool, ∀ q : ℚ, q ≤ B → round t q = .fin s m → m ≤ B := by
    intro t q hq hr
    rw [round_eq] at hr
    split_ifs at hr
    cases hr
    have := rnd_mono hq
    rwa [rnd_exact hB] at this
  unfold ofRat at h
  split_ifs at h with h0
  · exact key _ _ (by rw [abs_of_neg h0] at hv; exact hv) h
  · exact key _ _ (by rw [abs_of_nonneg (not_lt.1 h0)] at hv; exact hv) h

theorem most_add {n c k : ℤ} {j : ℕ} {a b : F64} (ha : Most n c j a) (hb : Calm n c b) (hj : j + 1 < 2 ^ 53) (hn : -1074 ≤ n)
    (hk : -1074 ≤ n + k) (hc0 : -1074 ≤ c) (hM : c + 54 ≤ 1023) (hM' : c + 54 + k ≤ 1023) :
    pow2 k a + pow2 k b = pow2 k (a + b) ∧ Most n c (j + 1) (a + b) := by
  obtain ⟨h1, h2⟩ := add_pow2 (k := k) (ha.calm (by omega)) (hb.mono (show c ≤ c + 53 by omega)) hn hk (by omega) (by omega) (by omega)
  refine ⟨h1, ?_⟩
  obtain ⟨r, y, hr, -⟩ := h2
  obtain ⟨s, z, rfl, hz⟩ := ha
  obtain ⟨t, w, rfl, hw⟩ := hb
  refine ⟨r, y, hr, ?_⟩
  have hz0 : (0:ℚ) ≤ z * 2 ^ n := mul_nonneg (Nat.cast_nonneg _) (two_zpow_pos n).le
  have hw0 : (0:ℚ) ≤ w * 2 ^ n := mul_nonneg (Nat.cast_nonneg _) (two_zpow_pos n).le
  have hd : Dyad (((j + 1 : ℕ) : ℚ) * 2 ^ c) := ⟨j + 1, c, hj, hc0, rfl⟩
  have hB : (0:ℚ) ≤ ((j + 1 : ℕ) : ℚ) * 2 ^ c := mul_nonneg (Nat.cast_nonneg _) (two_zpow_pos c).le
  have hv : |val s ((z:ℚ) * 2 ^ n) + val t ((w:ℚ) * 2 ^ n)| ≤ ((j + 1 : ℕ) : ℚ) * 2 ^ c := by
    rw [show ((j + 1 : ℕ) : ℚ) * 2 ^ c = j * 2 ^ c + 2 ^ c by push_cast; ring, abs_le]
    cases s <;> cases t <;> simp only [val, if_true, if_false, Bool.false_eq_true] <;> constructor <;> linarith
  have hr' : F64.add (.fin s ((z:ℚ) * 2 ^ n)) (.fin t ((w:ℚ) * 2 ^ n)) = .fin r (y * 2 ^ n) := hr
  simp only [F64.add] at hr'
  split_ifs at hr' with h0
  · injection hr' with _ h; rw [← h]; exact hB
  · exact ofRat_mag hr' hv hd

/-- division by a number between one and `2^60` -/
theorem div_pow2 {n M k : ℤ} {a : F64} {d : ℚ} (ha : Calm n M a) (h1 : 1 ≤ d) (h2 : d ≤ 2 ^ (60 : ℤ)) (hn : -900 ≤ n) (hk : -900 ≤ n + k)
    (hM0 : -1074 ≤ M) (hM : M ≤ 1023) (hM' : M + k ≤ 1023) :
    pow2 k a / .fin false d = pow2 k (a / .fin false d) ∧ Calm (n - 114) M (a / .fin false d) := by
  obtain ⟨s, z, rfl, hz⟩ := ha
  have hd : 0 < d := by linarith
  have e : ∀ x : ℚ, F64.div (.fin s x) (.fin false d) = round s (x / d) := by intro x; simp [F64.div, hd.ne']
  show F64.div (.fin s _) (.fin false d) = pow2 k (F64.div (.fin s _) (.fin false d)) ∧ Calm _ _ (F64.div (.fin s _) (.fin false d))
  rw [e, e]
  have hz0 : (0:ℚ) ≤ z * 2 ^ n := mul_nonneg (Nat.cast_nonneg _) (two_zpow_pos n).le
  have hq : (z:ℚ) * 2 ^ n / d ≤ 2 ^ M := (div_le_self hz0 h1).trans hz
  have e2 : (z:ℚ) * 2 ^ n * 2 ^ k / d = z * 2 ^ n / d * 2 ^ k := by ring
  have hq2 : (z:ℚ) * 2 ^ n / d * 2 ^ k ≤ 2 ^ (1023 : ℤ) := by
    refine (mul_le_mul_of_nonneg_right hq (two_zpow_pos k).le).trans ?_
    rw [← zpow_add₀ two_ne_zero]; exact pow_le hM'
  rw [e2, round_fin s hq2, round_fin s (hq.trans (pow_le hM))]
  rcases Nat.eq_zero_or_pos z with rfl | hzp
  · refine ⟨by simp [rnd, pow2], s, 0, by simp [rnd], by simpa using (two_zpow_pos M).le⟩
  have hqp : (0:ℚ) < z * 2 ^ n / d := div_pos (mul_pos (by exact_mod_cast hzp) (two_zpow_pos n)) hd
  have hlow : (2:ℚ) ^ (n - 60) ≤ z * 2 ^ n / d := by
    rw [le_div_iff₀ hd]
    refine (mul_le_mul_of_nonneg_left h2 (two_zpow_pos _).le).trans ?_
    rw [← zpow_add₀ two_ne_zero, sub_add_cancel]
    have : (1:ℚ) ≤ z := by exact_mod_cast hzp
    nlinarith [two_zpow_pos n]
  generalize hQ : (z:ℚ) * 2 ^ n / d = Q at *
  have hi : n - 60 ≤ ilog2 Q := by
    have h := hlow.trans_lt (ilog2_spec hqp).2
    rw [zpow_lt_zpow_iff_right₀ one_lt_two] at h; omega
  rw [rnd_scale_normal hqp k (by omega) (by omega)]
  refine ⟨rfl, ?_⟩
  obtain ⟨w, hw⟩ : ∃ w : ℕ, rnd Q = w * (2:ℚ) ^ (n - 114) := by
    rw [rnd, if_neg (not_le.2 hqp)]
    obtain ⟨i, hi'⟩ := Int.eq_ofNat_of_zero_le (roundEven_nonneg (mul_pos hqp (two_zpow_pos (-lsb Q))).le)
    rw [hi']
    exact mult_down i (by unfold lsb; omega)
  refine ⟨s, w, by rw [hw], ?_⟩
  rw [← hw]
  have := rnd_mono hq
  rwa [rnd_exact (dyad_pow2 hM0)] at this

end F64
end R3D
