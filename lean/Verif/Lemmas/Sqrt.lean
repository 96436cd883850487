import Verif.Lemmas.F64
import Verif.Lemmas.Bits
import Mathlib.Tactic.LinearCombination
/-!
The square root of the binary64 model: it is correctly rounded, monotone, and the square root of the rounded square of a
square root is not smaller.
-/
namespace R3D
namespace F64

theorem isqrt_spec (n : Nat) : ∀ (k acc : Nat), acc * acc ≤ n → n < (acc + 2 ^ k) * (acc + 2 ^ k) →
    isqrt n k acc * isqrt n k acc ≤ n ∧ n < (isqrt n k acc + 1) * (isqrt n k acc + 1) := by
  intro k
  induction k with
  | zero => intro acc h1 h2; exact ⟨h1, by simpa [isqrt] using h2⟩
  | succ k ih =>
    intro acc h1 h2
    simp only [isqrt]
    split_ifs with h
    · refine ih _ h ?_
      rw [add_assoc, ← two_mul, ← pow_succ']; exact h2
    · exact ih _ h1 (not_le.1 h)

/-- number of fraction bits used -/
def sqrtK (q : ℚ) : ℤ := max 0 (56 - ilog2 q / 2)

/-- the integer part of the scaled root -/
def sqrtS (q : ℚ) : ℕ :=
  let x := q * (4 : ℚ) ^ sqrtK q
  let n := (x.num / x.den).toNat
  isqrt n (Nat.log2 n / 2 + 1) 0

/-- what `sqrtMag` rounds -/
def sqrtArg (q : ℚ) : ℚ :=
  (sqrtS q + if (sqrtS q * sqrtS q : ℚ) = q * (4 : ℚ) ^ sqrtK q then 0 else 1 / 2) * (2 : ℚ) ^ (-sqrtK q)

theorem sqrtMag_eq {q : ℚ} (h : 0 < q) : sqrtMag q = round false (sqrtArg q) := by
  unfold sqrtMag
  rw [if_neg (not_le.2 h)]
  rfl

theorem sqrtS_spec {q : ℚ} (h : 0 < q) : (sqrtS q * sqrtS q : ℚ) ≤ q * (4:ℚ) ^ sqrtK q ∧
    q * (4:ℚ) ^ sqrtK q < (sqrtS q + 1) * (sqrtS q + 1) := by
  have hx : 0 < q * (4:ℚ) ^ sqrtK q := mul_pos h (zpow_pos (by norm_num) _)
  set x := q * (4:ℚ) ^ sqrtK q with hxd
  have hfl : (x.num / x.den : ℤ) = ⌊x⌋ := (Rat.floor_def x).symm
  set n := (x.num / x.den).toNat with hn
  have hnz : (n : ℤ) = ⌊x⌋ := by
    rw [hn, hfl]; exact Int.toNat_of_nonneg (Int.floor_nonneg.2 hx.le)
  have hs : sqrtS q = isqrt n (Nat.log2 n / 2 + 1) 0 := rfl
  have hlt : n < (0 + 2 ^ (Nat.log2 n / 2 + 1)) * (0 + 2 ^ (Nat.log2 n / 2 + 1)) := by
    rw [zero_add, ← pow_add]
    refine (Nat.lt_log2_self (n := n)).trans_le (Nat.pow_le_pow_right (by norm_num) ?_)
    omega
  obtain ⟨h1, h2⟩ := isqrt_spec n _ 0 (by simp) hlt
  rw [← hs] at h1 h2
  have h3 : (n : ℚ) ≤ x := by
    have := Int.floor_le x
    rw [← hnz] at this; exact_mod_cast this
  have h4 : x < n + 1 := by
    have := Int.lt_floor_add_one x
    rw [← hnz] at this; exact_mod_cast this
  constructor
  · refine le_trans ?_ h3
    exact_mod_cast h1
  · refine h4.trans_le ?_
    exact_mod_cast h2

theorem four_zpow (k : ℤ) : (4:ℚ) ^ k = (2:ℚ) ^ k * 2 ^ k := by
  rw [← mul_zpow]; norm_num

/-- the rounded number compares with multiples of `2^-k` as the root does -/
theorem sqrtArg_cmp {q : ℚ} (h : 0 < q) {b : ℚ} (j : ℕ) (hb : b = j * (2:ℚ) ^ (-sqrtK q)) :
    (b * b ≤ q ↔ b ≤ sqrtArg q) ∧ (q ≤ b * b ↔ sqrtArg q ≤ b) := by
  obtain ⟨h1, h2⟩ := sqrtS_spec h
  have hk : (0:ℚ) < 2 ^ (-sqrtK q) := two_zpow_pos _
  have hk' : (0:ℚ) < 4 ^ sqrtK q := zpow_pos (by norm_num) _
  have e1 : b * b * 4 ^ sqrtK q = (j:ℚ) * j := by
    rw [hb, four_zpow]
    have : (2:ℚ) ^ (-sqrtK q) * 2 ^ sqrtK q = 1 := by rw [← zpow_add₀ two_ne_zero]; simp
    calc (j:ℚ) * 2 ^ (-sqrtK q) * (j * 2 ^ (-sqrtK q)) * (2 ^ sqrtK q * 2 ^ sqrtK q)
        = j * j * ((2:ℚ) ^ (-sqrtK q) * 2 ^ sqrtK q) * (2 ^ (-sqrtK q) * 2 ^ sqrtK q) := by ring
      _ = j * j := by rw [this]; ring
  set x := q * (4:ℚ) ^ sqrtK q with hx
  have e2 : b * b ≤ q ↔ (j:ℚ) * j ≤ x := by rw [← e1, hx]; exact (mul_le_mul_iff_left₀ hk').symm
  have e3 : q ≤ b * b ↔ x ≤ (j:ℚ) * j := by rw [← e1, hx]; exact (mul_le_mul_iff_left₀ hk').symm
  have e4 : ∀ t : ℚ, b ≤ t * (2:ℚ) ^ (-sqrtK q) ↔ (j:ℚ) ≤ t := fun t => by rw [hb]; exact mul_le_mul_iff_left₀ hk
  have e5 : ∀ t : ℚ, t * (2:ℚ) ^ (-sqrtK q) ≤ b ↔ t ≤ j := fun t => by rw [hb]; exact mul_le_mul_iff_left₀ hk
  rw [e2, e3]
  unfold sqrtArg
  rw [e4, e5]
  have hlow : (j:ℚ) * j ≤ x ↔ j ≤ sqrtS q := by
    constructor
    · intro hj
      by_contra hc
      have : (sqrtS q : ℚ) + 1 ≤ j := by exact_mod_cast not_le.1 hc
      nlinarith [Nat.cast_nonneg (α := ℚ) (sqrtS q)]
    · intro hj
      have : (j:ℚ) ≤ sqrtS q := by exact_mod_cast hj
      nlinarith [Nat.cast_nonneg (α := ℚ) j]
  rw [hlow]
  by_cases hs : (sqrtS q * sqrtS q : ℚ) = x
  · rw [if_pos hs]
    constructor
    · rw [add_zero]; norm_cast
    · rw [← hs, add_zero]
      norm_cast
      constructor
      · intro hh; by_contra hc; push Not at hc; nlinarith
      · intro hh; exact Nat.mul_le_mul hh hh
  · rw [if_neg hs]
    constructor
    · constructor
      · intro hj
        have : (j:ℚ) ≤ sqrtS q := by exact_mod_cast hj
        linarith
      · intro hj
        by_contra hc
        have : (sqrtS q : ℚ) + 1 ≤ j := by exact_mod_cast not_le.1 hc
        linarith
    · constructor
      · intro hj
        have hlt : (sqrtS q * sqrtS q : ℚ) < j * j := (lt_of_le_of_ne h1 hs).trans_le hj
        have : sqrtS q + 1 ≤ j := by
          by_contra hc
          have h5 : (j:ℚ) ≤ sqrtS q := by exact_mod_cast Nat.le_of_lt_succ (not_le.1 hc)
          nlinarith [Nat.cast_nonneg (α := ℚ) j]
        have : (sqrtS q : ℚ) + 1 ≤ j := by exact_mod_cast this
        linarith
      · intro hj
        have : sqrtS q < j := by
          by_contra hc
          have h5 : (j:ℚ) ≤ sqrtS q := by exact_mod_cast not_lt.1 hc
          linarith
        have : (sqrtS q : ℚ) + 1 ≤ j := by exact_mod_cast this
        nlinarith [Nat.cast_nonneg (α := ℚ) (sqrtS q)]

/-- half of the logarithm -/
def hlog (q : ℚ) : ℤ := ilog2 q / 2

theorem hlog_spec {q : ℚ} (h : 0 < q) : (2:ℚ) ^ hlog q * 2 ^ hlog q ≤ q ∧ q < 2 ^ (hlog q + 1) * 2 ^ (hlog q + 1) := by
  obtain ⟨h1, h2⟩ := ilog2_spec h
  unfold hlog
  rw [← zpow_add₀ two_ne_zero, ← zpow_add₀ two_ne_zero]
  constructor
  · refine le_trans (zpow_le_zpow_right₀ one_le_two ?_) h1
    omega
  · refine h2.trans_le (zpow_le_zpow_right₀ one_le_two ?_)
    omega

/-- a multiple of a power of two not below `2^-k` -/
theorem mult_k (q : ℚ) (m : ℕ) {e : ℤ} (he : -sqrtK q ≤ e) : ∃ j : ℕ, (m:ℚ) * 2 ^ e = j * (2:ℚ) ^ (-sqrtK q) := by
  obtain ⟨d, hd⟩ : ∃ d : ℕ, e = d + -sqrtK q := ⟨(e + sqrtK q).toNat, by omega⟩
  refine ⟨m * 2 ^ d, ?_⟩
  rw [hd, zpow_add₀ two_ne_zero]
  push_cast
  rw [zpow_natCast]; ring

theorem sqrtArg_pos_bounds {q : ℚ} (h : 0 < q) : (2:ℚ) ^ hlog q ≤ sqrtArg q ∧ sqrtArg q < 2 ^ (hlog q + 1) := by
  obtain ⟨h1, h2⟩ := hlog_spec h
  have hk : -sqrtK q ≤ hlog q := by unfold sqrtK hlog; omega
  constructor
  · obtain ⟨j, hj⟩ := mult_k q 1 hk
    rw [Nat.cast_one, one_mul] at hj
    exact ((sqrtArg_cmp h j hj).1).1 h1
  · obtain ⟨j, hj⟩ := mult_k q 1 (show -sqrtK q ≤ hlog q + 1 by omega)
    rw [Nat.cast_one, one_mul] at hj
    by_contra hc
    exact absurd (((sqrtArg_cmp h j hj).1).2 (not_lt.1 hc)) (not_le.2 h2)

theorem sqrtArg_pos {q : ℚ} (h : 0 < q) : 0 < sqrtArg q := (two_zpow_pos _).trans_le (sqrtArg_pos_bounds h).1

theorem sqrtArg_mono {p q : ℚ} (hp : 0 < p) (h : p ≤ q) : sqrtArg p ≤ sqrtArg q := by
  have hq := hp.trans_le h
  rcases eq_or_ne (hlog p) (hlog q) with e | e
  · have hk : sqrtK p = sqrtK q := by
      have : ilog2 p / 2 = ilog2 q / 2 := e
      unfold sqrtK; rw [this]
    have hk' : (0:ℚ) < 4 ^ sqrtK q := zpow_pos (by norm_num) _
    have hx : p * (4:ℚ) ^ sqrtK p ≤ q * (4:ℚ) ^ sqrtK q := by
      rw [hk]; exact mul_le_mul_of_nonneg_right h hk'.le
    obtain ⟨p1, p2⟩ := sqrtS_spec hp
    obtain ⟨q1, q2⟩ := sqrtS_spec hq
    unfold sqrtArg
    rw [hk] at *
    refine mul_le_mul_of_nonneg_right ?_ (two_zpow_pos _).le
    have hs : sqrtS p ≤ sqrtS q := by
      by_contra hc
      have : (sqrtS q : ℚ) + 1 ≤ sqrtS p := by exact_mod_cast not_le.1 hc
      nlinarith [Nat.cast_nonneg (α := ℚ) (sqrtS q)]
    rcases hs.lt_or_eq with hs | hs
    · have : (sqrtS p : ℚ) + 1 ≤ sqrtS q := by exact_mod_cast hs
      split_ifs <;> linarith
    · rw [hs] at p1 p2 ⊢
      split_ifs with h1 h2 h2
      · exact le_rfl
      · linarith
      · exact absurd (le_antisymm p1 (by rw [h2]; exact hx)) h1
      · exact le_rfl
  · have hlt : hlog p < hlog q := by
      refine lt_of_le_of_ne ?_ e
      have := ilog2_mono hp h
      unfold hlog; omega
    refine (sqrtArg_pos_bounds hp).2.le.trans (le_trans ?_ (sqrtArg_pos_bounds hq).1)
    exact zpow_le_zpow_right₀ one_le_two (by omega)

/-! ### rounding to the nearest -/

theorem rnd_near {q : ℚ} (h : 0 < q) : |rnd q - q| ≤ (2:ℚ) ^ (lsb q - 1) := by
  rw [rnd, if_neg (not_le.2 h)]
  have h1 := roundEven_near (q * (2:ℚ) ^ (-lsb q))
  have e : q = q * (2:ℚ) ^ (-lsb q) * 2 ^ lsb q := by
    rw [mul_assoc, ← zpow_add₀ two_ne_zero, neg_add_cancel, zpow_zero, mul_one]
  have e2 : ∀ (r p u : ℚ), 0 ≤ u → |r - p| ≤ 1 / 2 → |r * u - p * u| ≤ 1 / 2 * u := by
    intro r p u hu hrp
    rw [← sub_mul, abs_mul, abs_of_nonneg hu]
    exact mul_le_mul_of_nonneg_right hrp hu
  have h2 := e2 _ _ _ (two_zpow_pos (lsb q)).le h1
  rw [← e] at h2
  rw [zpow_sub_one₀ two_ne_zero]
  calc _ ≤ _ := h2
    _ = _ := by ring

/-- a number above the middle below a multiple is not rounded below the multiple -/
theorem le_rnd_of_mid {q : ℚ} (h : 0 < q) (m : ℤ) (hm : (m - 1 / 2 : ℚ) * 2 ^ lsb q < q) : m * (2:ℚ) ^ lsb q ≤ rnd q := by
  rw [rnd, if_neg (not_le.2 h)]
  refine mul_le_mul_of_nonneg_right ?_ (two_zpow_pos _).le
  have h1 := (abs_le.1 (roundEven_near (q * (2:ℚ) ^ (-lsb q)))).1
  have h2 : (m - 1 / 2 : ℚ) < q * (2:ℚ) ^ (-lsb q) := by
    rw [zpow_neg, ← div_eq_mul_inv, lt_div_iff₀ (two_zpow_pos _)]; exact hm
  have h3 : ((m - 1 : ℤ) : ℚ) < roundEven (q * (2:ℚ) ^ (-lsb q)) := by push_cast; linarith
  have h4 : m - 1 < roundEven (q * (2:ℚ) ^ (-lsb q)) := by exact_mod_cast h3
  exact_mod_cast (by omega : m ≤ roundEven (q * (2:ℚ) ^ (-lsb q)))

theorem lsb_of {q : ℚ} (h : 0 < q) {k : ℤ} (h1 : (2:ℚ) ^ k ≤ q) (h2 : q < 2 ^ (k + 1)) : lsb q = max (k - 52) (-1074) := by
  unfold lsb; rw [ilog2_of h h1 h2]

/-- the value of the root, without overflow -/
def sqrtVal (q : ℚ) : ℚ := rnd (sqrtArg q)

theorem sqrtVal_mono {p q : ℚ} (hp : 0 < p) (h : p ≤ q) : sqrtVal p ≤ sqrtVal q := rnd_mono (sqrtArg_mono hp h)

theorem dyad_pow2 {e : ℤ} (he : -1074 ≤ e) : Dyad ((2:ℚ) ^ e) := ⟨1, e, by norm_num, he, by simp⟩

/-- the root of a positive number of the format, as a number of 53 bits -/
theorem sqrtVal_form {S : ℚ} (h : 0 < S) (hS : (2:ℚ) ^ (-1074 : ℤ) ≤ S) : -537 ≤ hlog S ∧
    ∃ m : ℕ, 2 ^ 52 ≤ m ∧ m ≤ 2 ^ 53 ∧ sqrtVal S = m * (2:ℚ) ^ (hlog S - 52) ∧
      sqrtArg S ≤ sqrtVal S + 2 ^ (hlog S - 53) ∧ sqrtVal S ≤ sqrtArg S + 2 ^ (hlog S - 53) := by
  obtain ⟨b1, b2⟩ := sqrtArg_pos_bounds h
  have ha := sqrtArg_pos h
  have hc : -537 ≤ hlog S := by
    have h2 := (ilog2_spec h).2
    have := hS.trans_lt h2
    rw [zpow_lt_zpow_iff_right₀ one_lt_two] at this
    unfold hlog; omega
  have hl : lsb (sqrtArg S) = hlog S - 52 := by
    rw [lsb_of ha b1 b2]; omega
  have hn := rnd_near ha
  rw [hl, show hlog S - 52 - 1 = hlog S - 53 by ring, abs_le] at hn
  refine ⟨hc, ?_⟩
  have lo : (2:ℚ) ^ hlog S ≤ sqrtVal S := by
    have := rnd_mono b1
    rwa [rnd_exact (dyad_pow2 (by omega))] at this
  have hi : sqrtVal S ≤ (2:ℚ) ^ (hlog S + 1) := by
    have := rnd_mono b2.le
    rwa [rnd_exact (dyad_pow2 (by omega))] at this
  have e : sqrtVal S = (roundEven (sqrtArg S * (2:ℚ) ^ (-lsb (sqrtArg S))) : ℚ) * (2:ℚ) ^ (hlog S - 52) := by
    unfold sqrtVal rnd
    rw [if_neg (not_le.2 ha), hl]
  set r := roundEven (sqrtArg S * (2:ℚ) ^ (-lsb (sqrtArg S)))
  have hpos := two_zpow_pos (hlog S - 52)
  have e1 : (2:ℚ) ^ hlog S = ((2 ^ 52 : ℤ) : ℚ) * 2 ^ (hlog S - 52) := by
    rw [show ((2 ^ 52 : ℤ) : ℚ) = (2:ℚ) ^ (52:ℤ) by norm_num, ← zpow_add₀ two_ne_zero]; congr 1; ring
  have e2 : (2:ℚ) ^ (hlog S + 1) = ((2 ^ 53 : ℤ) : ℚ) * 2 ^ (hlog S - 52) := by
    rw [show ((2 ^ 53 : ℤ) : ℚ) = (2:ℚ) ^ (53:ℤ) by norm_num, ← zpow_add₀ two_ne_zero]; congr 1; ring
  rw [e, e1, mul_le_mul_iff_left₀ hpos] at lo
  rw [e, e2, mul_le_mul_iff_left₀ hpos] at hi
  have lo' : (2:ℤ) ^ 52 ≤ r := by exact_mod_cast lo
  have hi' : r ≤ (2:ℤ) ^ 53 := by exact_mod_cast hi
  have hr : ((r.toNat : ℕ) : ℤ) = r := Int.toNat_of_nonneg (by omega)
  refine ⟨r.toNat, by zify; rw [hr]; exact lo', by zify; rw [hr]; exact hi', ?_, ?_, ?_⟩
  · rw [e]; congr 1; exact_mod_cast congrArg (Int.cast : ℤ → ℚ) hr.symm
  · unfold sqrtVal; linarith [hn.1]
  · unfold sqrtVal; linarith [hn.2]

theorem sqrtVal_sq {b : ℚ} (hb : 0 < b) {e : ℤ} (he : -1074 ≤ e) (hbe : b = 2 ^ e) : sqrtVal (b * b) = b := by
  have hbb := mul_pos hb hb
  have hl : hlog (b * b) = e := by
    have : ilog2 (b * b) = e + e := by
      rw [hbe, ← zpow_add₀ two_ne_zero]
      exact ilog2_of (two_zpow_pos _) le_rfl (zpow_lt_zpow_right₀ one_lt_two (by omega))
    unfold hlog; omega
  have hk : -sqrtK (b * b) ≤ e := by
    have : ilog2 (b * b) / 2 = e := hl
    unfold sqrtK; omega
  obtain ⟨j, hj⟩ := mult_k (b * b) 1 hk
  rw [Nat.cast_one, one_mul, ← hbe] at hj
  obtain ⟨c1, c2⟩ := sqrtArg_cmp hbb j hj
  unfold sqrtVal
  rw [le_antisymm (c2.1 le_rfl) (c1.1 le_rfl), hbe, rnd_exact (dyad_pow2 he)]

/-- the root of the rounded square of a normal number is not smaller than the number -/
theorem sqrtVal_rnd_sq_normal {D : ℚ} {m : ℕ} {e : ℤ} (hm1 : 2 ^ 52 ≤ m) (hm2 : m ≤ 2 ^ 53) (he : -563 ≤ e)
    (hD : D = m * (2:ℚ) ^ e) : 0 < rnd (D * D) ∧ D ≤ sqrtVal (rnd (D * D)) := by
  have hDpos : 0 < D := by
    rw [hD]; exact mul_pos (by exact_mod_cast (by omega : 0 < m)) (two_zpow_pos _)
  have hDD := mul_pos hDpos hDpos
  by_cases hpow : m = 2 ^ 52 ∨ m = 2 ^ 53
  · obtain ⟨f, hf, hDf⟩ : ∃ f : ℤ, e ≤ f - 52 ∧ D = 2 ^ f := by
      rcases hpow with hm | hm
      · refine ⟨e + 52, by omega, ?_⟩
        rw [hD, hm, show ((2 ^ 52 : ℕ) : ℚ) = (2:ℚ) ^ (52:ℤ) by norm_num, ← zpow_add₀ two_ne_zero]; congr 1; omega
      · refine ⟨e + 53, by omega, ?_⟩
        rw [hD, hm, show ((2 ^ 53 : ℕ) : ℚ) = (2:ℚ) ^ (53:ℤ) by norm_num, ← zpow_add₀ two_ne_zero]; congr 1; omega
    have hr : rnd (D * D) = D * D := by
      apply rnd_exact
      rw [hDf, ← zpow_add₀ two_ne_zero]
      exact dyad_pow2 (by omega)
    rw [hr]
    exact ⟨hDD, (sqrtVal_sq hDpos (e := f) (by omega) hDf).ge⟩
  · push Not at hpow
    have hm3 : 2 ^ 52 + 1 ≤ m := by omega
    have hm4 : m < 2 ^ 53 := by omega
    have hmq3 : (2:ℚ) ^ 52 + 1 ≤ m := by exact_mod_cast hm3
    have hmq4 : (m:ℚ) < 2 ^ 53 := by exact_mod_cast hm4
    set u := (2:ℚ) ^ e with hu
    have hupos : 0 < u := two_zpow_pos _
    have hub : D * D < 2 ^ 106 * (u * u) := by
      rw [hD]
      have : (m:ℚ) * m < 2 ^ 106 := by nlinarith
      have := mul_lt_mul_of_pos_right this (mul_pos hupos hupos)
      linarith
    have hlb : 2 ^ 104 * (u * u) ≤ D * D := by
      rw [hD]
      have : (2:ℚ) ^ 104 ≤ (m:ℚ) * m := by nlinarith
      have := mul_le_mul_of_nonneg_right this (mul_pos hupos hupos).le
      linarith
    have huu : u * u = 2 ^ (e + e) := by rw [hu, ← zpow_add₀ two_ne_zero]
    have hp : ∀ n : ℕ, (2:ℚ) ^ n * (u * u) = 2 ^ ((n:ℤ) + e + e) := by
      intro n
      rw [huu, ← zpow_natCast (2:ℚ), ← zpow_add₀ two_ne_zero]; congr 1; ring
    -- the rounded square
    have hl : lsb (D * D) ≤ 53 + e + e := by
      have h2 := (ilog2_spec hDD).1.trans_lt hub
      rw [hp 106, zpow_lt_zpow_iff_right₀ one_lt_two] at h2
      push_cast at h2
      unfold lsb; omega
    have hT1 : (m * m - 2 ^ 52 : ℚ) * (u * u) ≤ rnd (D * D) := by
      have h1 := (abs_le.1 (rnd_near hDD)).1
      have h2 : (2:ℚ) ^ (lsb (D * D) - 1) ≤ 2 ^ 52 * (u * u) := by
        rw [hp 52]; exact zpow_le_zpow_right₀ one_le_two (by push_cast; omega)
      have h3 : D * D = m * m * (u * u) := by rw [hD]; ring
      linarith
    have hT2 : rnd (D * D) ≤ 2 ^ 106 * (u * u) := by
      have := rnd_mono hub.le
      rwa [hp 106, rnd_exact (dyad_pow2 (by push_cast; omega)), ← hp 106] at this
    set T := rnd (D * D) with hT
    have hTpos : 0 < T := by
      refine lt_of_lt_of_le ?_ hT1
      refine mul_pos ?_ (mul_pos hupos hupos)
      nlinarith
    refine ⟨hTpos, ?_⟩
    -- the middle below `D`
    set b := ((2 * m - 1 : ℕ) : ℚ) * 2 ^ (e - 1) with hb
    have hbe : b = (m - 1 / 2 : ℚ) * u := by
      rw [hb, Nat.cast_sub (by omega), hu, zpow_sub_one₀ two_ne_zero]; push_cast; ring
    have hK : -sqrtK T ≤ e - 1 := by
      have h2 := (ilog2_spec hTpos).1.trans hT2
      rw [hp 106, zpow_le_zpow_iff_right₀ one_lt_two] at h2
      push_cast at h2
      unfold sqrtK; omega
    obtain ⟨i, hi⟩ := mult_k T (2 * m - 1) hK
    rw [← hb] at hi
    have hblt : b < sqrtArg T := by
      by_contra hcon
      have h1 := ((sqrtArg_cmp hTpos i hi).2).2 (not_lt.1 hcon)
      have h2 : b * b = (m * m - m + 1 / 4 : ℚ) * (u * u) := by rw [hbe]; ring
      have h3 := mul_pos hupos hupos
      have h4 : (m * m - m + 1 / 4 : ℚ) * (u * u) < (m * m - 2 ^ 52 : ℚ) * (u * u) := by
        refine mul_lt_mul_of_pos_right ?_ h3
        linarith
      linarith
    have hDdy : Dyad D := ⟨m, e, hm4, by omega, hD⟩
    by_cases hge : D ≤ sqrtArg T
    · have := rnd_mono hge
      rwa [rnd_exact hDdy] at this
    · push Not at hge
      have hap := sqrtArg_pos hTpos
      have hla : lsb (sqrtArg T) = e := by
        have h1 : (2:ℚ) ^ (52 + e) ≤ sqrtArg T := by
          refine le_trans ?_ hblt.le
          rw [hbe, zpow_add₀ two_ne_zero, ← hu]
          refine mul_le_mul_of_nonneg_right ?_ hupos.le
          have : ((2:ℚ) ^ (52:ℤ)) = 2 ^ 52 := by norm_num
          rw [this]; linarith
        have h2 : sqrtArg T < (2:ℚ) ^ (52 + e + 1) := by
          refine hge.trans ?_
          rw [hD, show 52 + e + 1 = 53 + e by ring, zpow_add₀ two_ne_zero, ← hu]
          refine mul_lt_mul_of_pos_right ?_ hupos
          have : ((2:ℚ) ^ (53:ℤ)) = 2 ^ 53 := by norm_num
          rw [this]; exact hmq4
        rw [lsb_of hap h1 h2]; omega
      have := le_rnd_of_mid hap m (by rw [hla, ← hu]; push_cast; rw [← hbe]; exact hblt)
      rw [hla, ← hu] at this
      rw [hD]
      exact_mod_cast this

/-- the root of the rounded square of a root is not smaller than the root -/
theorem sqrtVal_rnd_sq {S : ℚ} (h : 0 < S) (hd : Dyad S) :
    0 < rnd (sqrtVal S * sqrtVal S) ∧ sqrtVal S ≤ sqrtVal (rnd (sqrtVal S * sqrtVal S)) := by
  obtain ⟨k, e0, -, he0, hk⟩ := hd
  -- `S` is a multiple of the smallest number
  obtain ⟨j, hj⟩ : ∃ j : ℕ, S = j * (2:ℚ) ^ (-1074 : ℤ) := by
    refine ⟨k * 2 ^ (e0 + 1074).toNat, ?_⟩
    rw [hk]
    push_cast
    rw [← zpow_natCast (2:ℚ), mul_assoc, ← zpow_add₀ two_ne_zero]
    congr 2; omega
  have hj0 : 1 ≤ j := by
    rcases Nat.eq_zero_or_pos j with rfl | hj0
    · rw [hj] at h; simp at h
    · exact hj0
  have hS : (2:ℚ) ^ (-1074 : ℤ) ≤ S := by
    rw [hj]
    have : (1:ℚ) ≤ j := by exact_mod_cast hj0
    nlinarith [two_zpow_pos (-1074)]
  obtain ⟨hc, m, hm1, hm2, hD, hn1, hn2⟩ := sqrtVal_form h hS
  set D := sqrtVal S with hDdef
  set c := hlog S with hcdef
  have hDpos : 0 < D := by
    rw [hD]; exact mul_pos (by exact_mod_cast (by omega : 0 < m)) (two_zpow_pos _)
  have hDD := mul_pos hDpos hDpos
  obtain ⟨q1, q2⟩ := hlog_spec h
  rw [← hcdef] at q1 q2
  by_cases hcase : c ≤ -512
  · -- the square is below the normal numbers
    have key : (j - 1 / 2 : ℚ) * 2 ^ (-1074 : ℤ) < D * D := by
      have e1 : (1 / 2 : ℚ) * 2 ^ (-1074 : ℤ) = 2 ^ (-1075 : ℤ) := by
        rw [show (-1074 : ℤ) = -1075 + 1 by norm_num, zpow_add_one₀ two_ne_zero]; ring
      rw [sub_mul, ← hj, e1]
      rcases hm2.lt_or_eq with hm | hm
      · -- `S ≤ (D + h)²`
        set u := (2:ℚ) ^ (c - 53) with hu
        have hupos : 0 < u := two_zpow_pos _
        have e2 : (2:ℚ) ^ (c - 52) = 2 * u := by
          rw [hu, show c - 52 = c - 53 + 1 by ring, zpow_add_one₀ two_ne_zero]; ring
        have e3 : D + u = ((2 * m + 1 : ℕ) : ℚ) * 2 ^ (c - 53) := by
          rw [hD, e2, ← hu]; push_cast; ring
        have hK : -sqrtK S ≤ c - 53 := by
          have : ilog2 S / 2 = c := rfl
          unfold sqrtK; omega
        obtain ⟨i, hi⟩ := mult_k S (2 * m + 1) hK
        rw [← e3] at hi
        have h1 := ((sqrtArg_cmp h i hi).2).2 hn1
        have hmq : (m:ℚ) ≤ 2 ^ 53 - 1 := by
          have : m + 1 ≤ 2 ^ 53 := hm
          have : ((m + 1 : ℕ) : ℚ) ≤ ((2 ^ 53 : ℕ) : ℚ) := by exact_mod_cast this
          push_cast at this; linarith
        have h2 : D ≤ 2 ^ 54 * u - 2 * u := by
          rw [hD, e2]; nlinarith
        have h3 : 2 ^ 55 * u * u ≤ (2:ℚ) ^ (-1075 : ℤ) := by
          rw [hu, ← zpow_natCast (2:ℚ) 55, ← zpow_add₀ two_ne_zero, ← zpow_add₀ two_ne_zero]
          refine zpow_le_zpow_right₀ one_le_two ?_
          push_cast; omega
        nlinarith
      · have : D = 2 ^ (c + 1) := by
          rw [hD, hm, show ((2 ^ 53 : ℕ) : ℚ) = (2:ℚ) ^ (53:ℤ) by norm_num, ← zpow_add₀ two_ne_zero]; congr 1; ring
        rw [this]
        have := two_zpow_pos (-1075)
        linarith
    have hl : lsb (D * D) = -1074 := by
      have hDle : D ≤ 2 ^ (-511 : ℤ) := by
        rw [hD]
        have h1 : (m:ℚ) ≤ 2 ^ 53 := by exact_mod_cast hm2
        calc (m:ℚ) * 2 ^ (c - 52) ≤ 2 ^ 53 * 2 ^ (c - 52) := mul_le_mul_of_nonneg_right h1 (two_zpow_pos _).le
          _ = 2 ^ (c + 1) := by
            rw [← zpow_natCast (2:ℚ) 53, ← zpow_add₀ two_ne_zero]; congr 1; push_cast; ring
          _ ≤ _ := zpow_le_zpow_right₀ one_le_two (by omega)
      have h1 : D * D ≤ 2 ^ (-1022 : ℤ) := by
        calc D * D ≤ 2 ^ (-511 : ℤ) * 2 ^ (-511 : ℤ) := mul_le_mul hDle hDle hDpos.le (two_zpow_pos _).le
          _ = _ := by rw [← zpow_add₀ two_ne_zero]; norm_num
      have h2 := (ilog2_spec hDD).1.trans h1
      rw [zpow_le_zpow_iff_right₀ one_lt_two] at h2
      unfold lsb; omega
    have hge : S ≤ rnd (D * D) := by
      rw [hj]
      have := le_rnd_of_mid hDD j (by rw [hl]; exact_mod_cast key)
      rw [hl] at this
      exact_mod_cast this
    exact ⟨h.trans_le hge, sqrtVal_mono h hge⟩
  · -- the square is a normal number
    push Not at hcase
    exact sqrtVal_rnd_sq_normal hm1 hm2 (by omega) hD

/-- the normal form of a number of the format -/
theorem dyad_normal {D : ℚ} (hd : Dyad D) (h : (2:ℚ) ^ (-1022 : ℤ) ≤ D) :
    ∃ m : ℕ, 2 ^ 52 ≤ m ∧ m ≤ 2 ^ 53 ∧ D = m * (2:ℚ) ^ (ilog2 D - 52) := by
  have hpos := (two_zpow_pos (-1022)).trans_le h
  obtain ⟨h1, h2⟩ := ilog2_spec hpos
  have hk : -1022 ≤ ilog2 D := by
    have := h.trans_lt h2
    rw [zpow_lt_zpow_iff_right₀ one_lt_two] at this; omega
  have hl : lsb D = ilog2 D - 52 := by unfold lsb; omega
  have e := rnd_exact hd
  unfold rnd at e
  rw [if_neg (not_le.2 hpos), hl] at e
  set r := roundEven (D * (2:ℚ) ^ (-(ilog2 D - 52)))
  have hu := two_zpow_pos (ilog2 D - 52)
  have e1 : (2:ℚ) ^ ilog2 D = ((2 ^ 52 : ℤ) : ℚ) * 2 ^ (ilog2 D - 52) := by
    rw [show ((2 ^ 52 : ℤ) : ℚ) = (2:ℚ) ^ (52:ℤ) by norm_num, ← zpow_add₀ two_ne_zero]; congr 1; ring
  have e2 : (2:ℚ) ^ (ilog2 D + 1) = ((2 ^ 53 : ℤ) : ℚ) * 2 ^ (ilog2 D - 52) := by
    rw [show ((2 ^ 53 : ℤ) : ℚ) = (2:ℚ) ^ (53:ℤ) by norm_num, ← zpow_add₀ two_ne_zero]; congr 1; ring
  rw [e1] at h1
  rw [e2] at h2
  have lo := (mul_le_mul_iff_left₀ hu).1 (h1.trans e.ge)
  have hi := (mul_lt_mul_iff_left₀ hu).1 (e.le.trans_lt h2)
  have lo' : (2:ℤ) ^ 52 ≤ r := by exact_mod_cast lo
  have hi' : r < (2:ℤ) ^ 53 := by exact_mod_cast hi
  have hr : ((r.toNat : ℕ) : ℤ) = r := Int.toNat_of_nonneg (by omega)
  refine ⟨r.toNat, by zify; rw [hr]; exact lo', by zify; rw [hr]; exact hi'.le, ?_⟩
  refine e.symm.trans ?_
  congr 1
  exact_mod_cast congrArg (Int.cast : ℤ → ℚ) hr.symm

/-- the root of the rounded square of a number that is not too small is not smaller than the number -/
theorem sqrtVal_rnd_sq_of_le {D : ℚ} (hd : Dyad D) (h : (2:ℚ) ^ (-511 : ℤ) ≤ D) :
    0 < rnd (D * D) ∧ D ≤ sqrtVal (rnd (D * D)) := by
  obtain ⟨m, h1, h2, h3⟩ := dyad_normal hd ((zpow_le_zpow_right₀ one_le_two (by norm_num)).trans h)
  refine sqrtVal_rnd_sq_normal h1 h2 ?_ h3
  have := h.trans_lt (ilog2_spec ((two_zpow_pos _).trans_le h)).2
  rw [zpow_lt_zpow_iff_right₀ one_lt_two] at this
  omega

end F64
end R3D
