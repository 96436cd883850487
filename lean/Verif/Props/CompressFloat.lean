import Verif.Lemmas.F64Box
import Verif.Props.Compress
import Verif.Props.BoxFloat
/-!
C42 with doubles: compression with all roundings.
-/
namespace R3D
open Scalar LawfulScalar Spec F64

namespace F64

theorem lit_nat {k : Nat} (hk : k < 2 ^ 53) : Num (Scalar.lit (k : ℚ) : F64) ∧ toR (Scalar.lit (k : ℚ) : F64) = k := by
  have hr : Rep (.fin false (k : ℚ)) := by
    refine ⟨by positivity, ?_, k, 0, hk, by norm_num, by simp⟩
    have h1 : (k : ℚ) < 2 ^ 53 := by exact_mod_cast hk
    refine h1.trans ?_
    rw [← zpow_natCast]
    exact zpow_lt_zpow_right₀ one_lt_two (by norm_num)
  have e : (Scalar.lit (k : ℚ) : F64) = .fin false k := by
    show ofRat (k : ℚ) = _
    unfold ofRat
    rw [if_neg (not_lt.2 (by positivity)), round_exact false hr]
  rw [e]
  refine ⟨Num.mk' hr, ?_⟩
  rw [real_fin]; simp [val]

theorem lit_neg1 : Num (Scalar.lit (-1) : F64) ∧ toR (Scalar.lit (-1) : F64) = -1 := by
  have e : (Scalar.lit (-1) : F64) = -(Scalar.lit ((1 : ℕ) : ℚ)) := by decide +kernel
  obtain ⟨h1, h2⟩ := lit_nat (k := 1) (by norm_num)
  rw [e]
  exact ⟨h1.neg, by rw [show (-(Scalar.lit ((1 : ℕ) : ℚ)) : F64) = F64.neg (Scalar.lit ((1 : ℕ) : ℚ)) from rfl, toR_neg h1, h2]; norm_num⟩

theorem toNatSat_num {a : F64} (ha : Num a) (h0 : 0 ≤ toR a) (M : Nat) : Scalar.toNatSat M a = min M ⌊toR a⌋₊ := by
  obtain ⟨s, m, rfl, r, hm, e⟩ := ha.form
  show F64.toNatSat M (.fin s m) = _
  rw [e] at h0 ⊢
  have hv : 0 ≤ val s m := by exact_mod_cast h0
  have hfl : ∀ q : ℚ, 0 ≤ q → (q.num / q.den).toNat = ⌊(q : ℝ)⌋₊ := by
    intro q hq
    have h1 : ⌊q⌋ = q.num / q.den := Rat.floor_def q
    rw [← h1, ← Rat.floor_cast (α := ℝ) q]
    rfl
  cases s with
  | false =>
    simp only [F64.toNatSat, Bool.false_eq_true, if_false, val] at hv ⊢
    rw [hfl m hv]
  | true =>
    simp only [F64.toNatSat, if_true, val] at hv ⊢
    have : m = 0 := le_antisymm (by linarith) r.1
    subst this
    simp

/-- dividing by a power of two and by the result again gives that power -/
theorem div_div_pow {a : F64} (ha : Num a) (h0 : 2 ^ (-801 : ℤ) ≤ toR a) {k : Nat} (hk : k ≤ 128) :
    a / (a / F64.fin false (2 ^ k)) = F64.fin false (2 ^ k) := by
  obtain ⟨s, m, rfl, r, hm, e⟩ := ha.form
  have hv : (2:ℚ) ^ (-801 : ℤ) ≤ val s m := by
    rw [e] at h0
    have h1 : (((2:ℚ) ^ (-801 : ℤ) : ℚ) : ℝ) ≤ ((val s m : ℚ) : ℝ) := by
      rw [Rat.cast_zpow, Rat.cast_ofNat]; exact h0
    exact_mod_cast h1
  have hs : s = false := by
    cases s with
    | false => rfl
    | true =>
      have := lt_of_lt_of_le (two_zpow_pos (-801)) hv
      simp only [val, if_true] at this
      linarith [r.1]
  subst hs
  simp only [val, Bool.false_eq_true, if_false] at hv
  have hm0 : 0 < m := lt_of_lt_of_le (two_zpow_pos (-801)) hv
  obtain ⟨r1, r2, j, x, hj, hx, hmx⟩ := r
  have hxx : -854 ≤ x := by
    by_contra hc
    have h1 : (2:ℚ) ^ x ≤ 2 ^ (-855 : ℤ) := zpow_le_zpow_right₀ one_le_two (by omega)
    have h2 : (j : ℚ) < 2 ^ (53 : ℤ) := by exact_mod_cast hj
    have h3 : m < 2 ^ (53 : ℤ) * 2 ^ (-855 : ℤ) := by
      rw [hmx]
      exact lt_of_lt_of_le (mul_lt_mul_of_pos_right h2 (two_zpow_pos x)) (mul_le_mul_of_nonneg_left h1 (two_zpow_pos 53).le)
    rw [← zpow_add₀ two_ne_zero] at h3
    have h4 := lt_of_le_of_lt hv h3
    have := (zpow_lt_zpow_iff_right₀ (one_lt_two (α := ℚ))).1 h4
    norm_num at this
  have rep1 : Rep (.fin false (m / 2 ^ k)) := by
    refine ⟨by positivity, lt_of_le_of_lt (div_le_self r1 (one_le_pow₀ one_le_two)) r2, j, x - k, hj, by omega, ?_⟩
    rw [hmx, zpow_sub₀ two_ne_zero, zpow_natCast, mul_div_assoc]
  have rep2 : Rep (.fin false ((2:ℚ) ^ k)) := by
    refine ⟨by positivity, ?_, 1, k, by norm_num, by omega, by rw [zpow_natCast]; norm_num⟩
    rw [← zpow_natCast]
    exact zpow_lt_zpow_right₀ one_lt_two (by omega)
  show F64.div _ (F64.div _ _) = _
  simp only [F64.div]
  rw [if_neg (by positivity), Bool.xor_false, round_exact false rep1]
  simp only
  rw [if_neg (by positivity), Bool.xor_false, div_div_cancel₀ hm0.ne', round_exact false rep2]

end F64

/-- one coordinate: compressed and decompressed -/
theorem quant1 {l h p : F64} (hl : F64.Num l) (hh : F64.Num h) (hp : F64.Num p) (hlp : toR l ≤ toR p) (hph : toR p ≤ toR h)
    {M : ℝ} (hM : M ≤ 2 ^ (1020 : ℤ)) (bl : |toR l| ≤ M) (bh : |toR h| ≤ M) (hw : 2 ^ (-800 : ℤ) ≤ toR h - toR l)
    {bits : Nat} (hb0 : 0 < bits) (hb : bits ≤ 48) :
    ∃ n : Nat, castTo bits ((p - l) / (Scalar.abs (h - l) / lit (maxValue bits))) = some n ∧
      F64.Num (l + Scalar.abs (h - l) / lit (maxValue bits) * lit n) ∧
      -(2 ^ (-48 : ℤ) * M) ≤ toR p - toR (l + Scalar.abs (h - l) / lit (maxValue bits) * lit n) ∧
      toR p - toR (l + Scalar.abs (h - l) / lit (maxValue bits) * lit n) ≤ (toR h - toR l) / (2 ^ bits - 1) + 2 ^ (-48 : ℤ) * M := by
  have hW0 : 0 < toR h - toR l := lt_of_lt_of_le (zpow_pos two_pos _) hw
  have hm1 : 1 ≤ maxValue bits := by
    have : 2 ^ 1 ≤ 2 ^ bits := Nat.pow_le_pow_right (by norm_num) hb0
    unfold maxValue; omega
  have hm48 : maxValue bits ≤ 2 ^ 48 := by
    have : 2 ^ bits ≤ 2 ^ 48 := Nat.pow_le_pow_right (by norm_num) hb
    unfold maxValue; omega
  have hcast : ((maxValue bits : Nat) : ℝ) = 2 ^ bits - 1 := by
    unfold maxValue
    rw [Nat.cast_sub Nat.one_le_two_pow]; simp
  obtain ⟨k1, k2⟩ := lit_nat (k := maxValue bits) (lt_of_le_of_lt hm48 (by norm_num))
  rw [← hcast]
  have hlim : F64.Num (lit (maxValue bits) + lit 1 : F64) ∧ toR (lit (maxValue bits) + lit 1 : F64) = (maxValue bits : ℝ) + 1 := by
    obtain ⟨o1, o2⟩ := lit_nat (k := 1) (by norm_num)
    have e : ((1 : ℕ) : ℚ) = 1 := by norm_num
    rw [e] at o1 o2
    obtain ⟨c1, c2⟩ := lit_nat (k := maxValue bits + 1) (by omega)
    have hle : toR (lit (maxValue bits) : F64) + toR (lit 1 : F64) = toR (lit ((maxValue bits + 1 : ℕ) : ℚ) : F64) := by
      rw [k2, o2, c2]; push_cast; ring
    have a1 := key_add_le k1 o1 c1 hle.le
    have a2 := le_key_add k1 o1 c1 hle.ge
    have a3 := le_antisymm a1 a2
    have num : F64.Num (lit (maxValue bits) + lit 1 : F64) :=
      num_of_bounded (add_rep _ _) (ok_add_num k1 o1) (by rw [← c1.key]; exact a2) (by rw [← c1.key]; exact a1)
    refine ⟨num, ?_⟩
    rw [num.key, c1.key, EReal.coe_eq_coe_iff, c2] at a3
    rw [a3]; push_cast; ring
  generalize hmv : maxValue bits = m at *
  have hmr1 : (1:ℝ) ≤ m := by exact_mod_cast hm1
  have hmr2 : (m:ℝ) ≤ 2 ^ 48 := by exact_mod_cast hm48
  obtain ⟨bl1, bl2⟩ := abs_le.1 bl
  obtain ⟨bh1, bh2⟩ := abs_le.1 bh
  have hM0 : 0 < M := by linarith only [hW0, bl1, bh2]
  have big : 8 * M ≤ 2 ^ (1023 : ℤ) := by
    have : (2:ℝ) ^ (1023 : ℤ) = 8 * 2 ^ (1020 : ℤ) := by
      rw [show (1023 : ℤ) = 3 + 1020 by norm_num, zpow_add₀ two_ne_zero]; norm_num
    rw [this]; exact mul_le_mul_of_nonneg_left hM (by norm_num)
  have hη0 := eta_pos
  have hη := eta_half
  have hu := u_small
  -- the smallest number is negligible
  have hηW : 2 ^ (-1074 : ℤ) ≤ 1 / 2 ^ 110 * (toR h - toR l) := by
    refine le_trans ?_ (mul_le_mul_of_nonneg_left hw (by positivity))
    rw [show (-1074 : ℤ) = -274 + -800 by norm_num, zpow_add₀ two_ne_zero]
    refine mul_le_mul_of_nonneg_right ?_ (zpow_pos two_pos _).le
    rw [show (1:ℝ) / 2 ^ 110 = 2 ^ (-110 : ℤ) by rw [zpow_neg, one_div]; norm_cast]
    exact zpow_le_zpow_right₀ one_le_two (by norm_num)
  have hηs : (2:ℝ) ^ (-1074 : ℤ) ≤ 1 / 2 ^ 100 := by
    rw [show (1:ℝ) / 2 ^ 100 = 2 ^ (-100 : ℤ) by rw [zpow_neg, one_div]; norm_cast]
    exact zpow_le_zpow_right₀ one_le_two (by norm_num)
  obtain ⟨d1, d2, d3⟩ := size1 hl hh (by linarith only [hW0]) (le_trans (by linarith only [bl1, bh2, hM0]) big)
  generalize Scalar.abs (h - l) = D at *
  have hDm : toR D / toR (lit (m:ℚ) : F64) ≤ toR D := by rw [k2]; exact div_le_self d2.le hmr1
  have hDm0 : 0 < toR D / toR (lit (m:ℚ) : F64) := by rw [k2]; exact div_pos d2 (by linarith)
  obtain ⟨d31, d32⟩ := abs_le.1 d3
  have hDM : toR D ≤ 4 * M := by
    rw [hu] at d32
    linarith only [d32, bl1, bh2, hM0]
  obtain ⟨u1, u2⟩ := toR_div d1 k1 (by rw [k2]; positivity) (by
    rw [abs_of_pos hDm0]
    exact (hDm.trans hDM).trans (le_trans (by linarith only [hM0]) big))
  rw [abs_of_pos hDm0] at u2
  generalize D / (lit (m:ℚ) : F64) = U at *
  rw [k2] at u2 hDm0 hDm
  have emul : toR D / m * m = toR D := div_mul_cancel₀ _ (by positivity)
  generalize toR D / (m:ℝ) = E at *
  -- `U m` is the width
  have hEη : 2 ^ (-1074 : ℤ) ≤ 1 / 2 ^ 60 * E := by
    have h1 : toR h - toR l ≤ 2 * toR D := by rw [hu] at d31; linarith only [d31, hW0]
    have h2 : E * m ≤ E * 2 ^ 48 := mul_le_mul_of_nonneg_left hmr2 hDm0.le
    rw [emul] at h2
    have h3 : (1:ℝ) / 2 ^ 110 * (toR h - toR l) ≤ 1 / 2 ^ 60 * E := by
      norm_num at h2 ⊢
      linarith only [h1, h2, hDm0]
    exact hηW.trans h3
  rw [hη, hu] at u2
  rw [hu] at d31 d32
  obtain ⟨u21, u22⟩ := abs_le.1 u2
  generalize hηd : (2:ℝ) ^ (-1074 : ℤ) = η at *
  have hU1 : E * (1 - 1 / 2 ^ 52) ≤ toR U := by norm_num at hEη ⊢; linarith only [u21, hEη, hDm0]
  have hU2 : toR U ≤ E * (1 + 1 / 2 ^ 52) := by norm_num at hEη ⊢; linarith only [u22, hEη, hDm0]
  have hU0 : 0 < toR U := by norm_num at hU1; linarith only [hU1, hDm0]
  have hmU1 : toR D * (1 - 1 / 2 ^ 52) ≤ toR U * m := by
    have := mul_le_mul_of_nonneg_right hU1 (le_trans zero_le_one hmr1)
    rw [← emul]; linarith only [this]
  have hmU2 : toR U * m ≤ toR U * 2 ^ 48 := mul_le_mul_of_nonneg_left hmr2 hU0.le
  -- the distance from the border
  obtain ⟨y1, y2⟩ := toR_sub hp hl (by
    rw [abs_of_nonneg (by linarith only [hlp])]
    exact le_trans (by linarith only [bl1, bh2, hph, hM0]) big)
  rw [abs_of_nonneg (show 0 ≤ toR p - toR l by linarith only [hlp]), hu] at y2
  obtain ⟨y21, y22⟩ := abs_le.1 y2
  generalize p - l = Y at *
  have hy0 : 0 ≤ toR Y := by linarith only [y21, hlp]
  have hq0 : 0 ≤ toR Y / toR U := div_nonneg hy0 hU0.le
  have hqU : toR Y / toR U * toR U = toR Y := div_mul_cancel₀ _ hU0.ne'
  have hq1 : toR Y / toR U ≤ 2 * m := by
    rw [div_le_iff₀ hU0]
    have : 2 * (m:ℝ) * toR U = 2 * (toR U * m) := by ring
    rw [this]
    norm_num at hmU1
    linarith only [hmU1, y22, d31, hph, hlp, hW0]
  obtain ⟨x1, x2⟩ := toR_div y1 u1 hU0.ne' (by
    rw [abs_of_nonneg hq0]
    have h2 : (2:ℝ) ^ (49 : ℕ) ≤ 2 ^ (1023 : ℤ) := by
      rw [← zpow_natCast]; exact zpow_le_zpow_right₀ one_le_two (by norm_num)
    refine le_trans ?_ h2
    rw [show (2:ℝ) ^ 49 = 2 * 2 ^ 48 by norm_num]
    linarith only [hq1, hmr2])
  rw [abs_of_nonneg hq0, hη, hu] at x2
  generalize Y / U = X at *
  obtain ⟨x21, x22⟩ := abs_le.1 x2
  have hx0 : 0 ≤ toR X := MultR.le_of_lt ⟨0, by simp⟩ x1.multR (by rw [hηd]; linarith only [x21, hq0, hη0])
  -- `U X` is the distance
  have hxU1 : toR X * toR U ≤ toR Y * (1 + 1 / 2 ^ 53) + toR U * (1 / 2 ^ 100) := by
    have h1 : toR X ≤ toR Y / toR U * (1 + 1 / 2 ^ 53) + 1 / 2 ^ 100 := by
      norm_num at hηs ⊢
      linarith only [x22, hηs, hη0]
    have h2 := mul_le_mul_of_nonneg_right h1 hU0.le
    have h3 : (toR Y / toR U * (1 + 1 / 2 ^ 53) + 1 / 2 ^ 100) * toR U = toR Y / toR U * toR U * (1 + 1 / 2 ^ 53) + toR U * (1 / 2 ^ 100) := by ring
    rwa [h3, hqU] at h2
  have hxU2 : toR Y * (1 - 1 / 2 ^ 53) - toR U * (1 / 2 ^ 100) ≤ toR X * toR U := by
    have h1 : toR Y / toR U * (1 - 1 / 2 ^ 53) - 1 / 2 ^ 100 ≤ toR X := by
      norm_num at hηs ⊢
      linarith only [x21, hηs, hη0]
    have h2 := mul_le_mul_of_nonneg_right h1 hU0.le
    have h3 : (toR Y / toR U * (1 - 1 / 2 ^ 53) - 1 / 2 ^ 100) * toR U = toR Y / toR U * toR U * (1 - 1 / 2 ^ 53) - toR U * (1 / 2 ^ 100) := by ring
    rwa [h3, hqU] at h2
  have hxm : toR X < m + 1 := by
    by_contra hc
    have h1 := mul_le_mul_of_nonneg_right (not_lt.1 hc) hU0.le
    norm_num at hxU1 hmU1 hmU2
    linarith only [h1, hxU1, hmU1, hmU2, y22, d31, hph, hlp, hU0, hW0]
  have hcs : castTo bits X = some ⌊toR X⌋₊ := by
    obtain ⟨l1, l2⟩ := hlim
    unfold castTo
    rw [if_pos (by omega : bits < 64), if_pos]
    · rw [toNatSat_num x1 hx0, min_eq_right]
      have := (Nat.floor_lt hx0).2 (by push_cast; exact hxm : toR X < ((m + 1 : ℕ) : ℝ))
      rw [hmv]; omega
    · rw [hmv, Bool.and_eq_true, num_lt lit_neg1.1 x1, num_lt x1 l1, l2, lit_neg1.2]
      exact ⟨by linarith only [hx0], hxm⟩
  have hn1 := Nat.floor_le hx0
  have hn2 := Nat.lt_floor_add_one (toR X)
  refine ⟨_, hcs, ?_⟩
  have hnm : ⌊toR X⌋₊ < m + 1 := (Nat.floor_lt hx0).2 (by push_cast; exact hxm)
  generalize ⌊toR X⌋₊ = n at *
  have hnr : (0:ℝ) ≤ n := Nat.cast_nonneg n
  obtain ⟨n1, n2⟩ := lit_nat (k := n) (by omega)
  have hUn1 : toR U * n ≤ toR X * toR U := by
    have := mul_le_mul_of_nonneg_right hn1 hU0.le
    linarith only [this]
  have hUn2 : toR X * toR U ≤ toR U * n + toR U := by
    have := mul_le_mul_of_nonneg_right hn2.le hU0.le
    linarith only [this]
  have hUn0 : 0 ≤ toR U * n := mul_nonneg hU0.le hnr
  have hED : E ≤ toR D := hDm
  have hUM : toR U ≤ 8 * M := by norm_num at hU2; linarith only [hU2, hED, hDM, hM0]
  have hUnM : toR U * n ≤ 3 * M := by
    norm_num at hxU1
    linarith only [hUn1, hxU1, hUM, y22, hlp, hph, bl1, bh2, hM0]
  obtain ⟨t1, t2⟩ := toR_mul u1 n1 (by
    rw [n2, abs_of_nonneg hUn0]
    exact le_trans (by linarith only [hUnM, hM0]) big)
  rw [n2, abs_of_nonneg hUn0, hη, hu] at t2
  generalize U * (lit (n:ℚ) : F64) = T at *
  obtain ⟨t21, t22⟩ := abs_le.1 t2
  have hηM : η ≤ 1 / 2 ^ 100 * M := by
    norm_num at hηW ⊢
    linarith only [hηW, bl1, bh2, hM0]
  have hlt : |toR l + toR T| ≤ 5 * M := by
    norm_num at hηM
    rw [abs_le]
    constructor <;> linarith only [hηM, t21, t22, hUnM, hUn0, bl1, bl2, hM0]
  obtain ⟨q1, q2⟩ := toR_add hl t1 (hlt.trans (le_trans (by linarith only [hM0]) big))
  refine ⟨q1, ?_⟩
  rw [hu] at q2
  obtain ⟨q21, q22⟩ := abs_le.1 q2
  have hDW : E * m ≤ (toR h - toR l) * (1 + 1 / 2 ^ 53) := by rw [emul]; norm_num; linarith only [d32]
  have hEW : E ≤ (toR h - toR l) / m * (1 + 1 / 2 ^ 53) := by
    rw [div_mul_eq_mul_div, le_div_iff₀ (by linarith only [hmr1])]
    exact hDW
  have hWm : (toR h - toR l) / m ≤ toR h - toR l := div_le_self hW0.le hmr1
  generalize (toR h - toR l) / (m:ℝ) = V at *
  have h48 : (2:ℝ) ^ (-48 : ℤ) = 1 / 281474976710656 := by norm_num
  rw [h48]
  norm_num at hηM hxU1 hxU2 hU2 hEW
  constructor
  · linarith only [q22, hlt, t22, hηM, hUn1, hxU1, y22, hUM, hM0, hlp, hph, bl1, bh2]
  · linarith only [q21, hlt, t21, hηM, hUn2, hxU2, y21, hUM, hM0, hlp, hph, bl1, bh2, hU2, hEW, hWm, hED, hDM, hUnM]

/-- all coordinates are numbers of at most `M` -/
def Spec.CloudWithin (pc : List (Point3D F64)) (M : ℝ) : Prop := ∀ p ∈ pc, ∀ d, F64.Num (at3 p d) ∧ |toR (at3 p d)| ≤ M

/-- in every direction two points are at least `2^-800` apart -/
def Spec.Spread (pc : List (Point3D F64)) : Prop :=
  ∀ d, ∃ p ∈ pc, ∃ q ∈ pc, 2 ^ (-800 : ℤ) ≤ toR (at3 p d) - toR (at3 q d)

theorem box_of_spread {pc : List (Point3D F64)} {M : ℝ} (hw : CloudWithin pc M) (hs : Spread pc) :
    ∃ b : BoundingBox3D F64, BoundingBox3D.fromIterator pc = .ok b ∧
      (∀ d, ∃ p ∈ pc, at3 b.min d = at3 p d) ∧ (∀ d, ∃ p ∈ pc, at3 b.max d = at3 p d) ∧
      (∀ d, 2 ^ (-800 : ℤ) ≤ toR (at3 b.max d) - toR (at3 b.min d)) ∧
      ∀ p ∈ pc, ∀ d, toR (at3 b.min d) ≤ toR (at3 p d) ∧ toR (at3 p d) ≤ toR (at3 b.max d) := by
  have hlt : ∀ d, ∃ p ∈ pc, ∃ q ∈ pc, toR (at3 q d) < toR (at3 p d) := by
    intro d
    obtain ⟨p, hp, q, hq, h⟩ := hs d
    exact ⟨p, hp, q, hq, by have := lt_of_lt_of_le (zpow_pos two_pos _) h; linarith only [this]⟩
  have hlen : 2 ≤ pc.length := by
    obtain ⟨p, hp, q, hq, h⟩ := hlt 0
    match pc, hp, hq with
    | [a], hp, hq =>
      rw [List.mem_singleton.1 hp, List.mem_singleton.1 hq] at h
      exact absurd h (lt_irrefl _)
    | _ :: _ :: _, _, _ => simp
  obtain ⟨b, hb, -, hin, hat, -⟩ := (c16_from_iterator_3d pc (fun p hp d => (hw p hp d).1.ok)).2.2 hlen (by
    intro d
    obtain ⟨p, hp, q, hq, h⟩ := hlt d
    refine ⟨p, hp, q, hq, ?_⟩
    show F64.key _ ≠ F64.key _
    rw [(hw p hp d).1.key, (hw q hq d).1.key, Ne, EReal.coe_eq_coe_iff]
    exact h.ne')
  have hin' : ∀ p ∈ pc, ∀ d, toR (at3 b.min d) ≤ toR (at3 p d) ∧ toR (at3 p d) ≤ toR (at3 b.max d) := by
    intro p hp d
    obtain ⟨h1, h2⟩ := hin p hp d
    obtain ⟨⟨q, hq, e⟩, r, hr, e'⟩ := hat d
    have k1 : F64.key (at3 b.min d) ≤ F64.key (at3 p d) := h1
    have k2 : F64.key (at3 p d) ≤ F64.key (at3 b.max d) := h2
    have n1 : F64.Num (at3 b.min d) := by have := (hw q hq d).1; rwa [← e] at this
    have n2 : F64.Num (at3 b.max d) := by have := (hw r hr d).1; rwa [← e'] at this
    rw [n1.key, (hw p hp d).1.key, EReal.coe_le_coe_iff] at k1
    rw [n2.key, (hw p hp d).1.key, EReal.coe_le_coe_iff] at k2
    exact ⟨k1, k2⟩
  refine ⟨b, hb, fun d => (hat d).1, fun d => (hat d).2, fun d => ?_, hin'⟩
  obtain ⟨p, hp, q, hq, h⟩ := hs d
  refine h.trans ?_
  linarith only [(hin' p hp d).2, (hin' q hq d).1]

namespace CompressedPointCloud3D

/-- C42 for doubles with all roundings, integer types of at most 48 bits (`u8`, `u16`, `u32`): a cloud of finite
coordinates (at most `M ≤ 2^1020`) with at least `2^-800` of extent in every direction can be compressed;
decompressing gives as many points in the same order, with finite coordinates; no coordinate is increased by
more than `2^-48 M` and none is decreased by more than `W / (2^bits - 1) + 2^-48 M`, where `W` is any bound on
the extent of the cloud in that direction. Missing: 64 bit integers, for which the property is false
(`c42_wide_fails_f64`), and smaller extents, for which it is false as well (`c42_violated_tiny`) -/
theorem c42_error_f64_partial (bits : Nat) (h0 : 0 < bits) (h48 : bits ≤ 48) (pc : List (Point3D F64)) (M : ℝ)
    (hM : M ≤ 2 ^ (1020 : ℤ)) (hw : CloudWithin pc M) (hs : Spread pc) (W : Fin 3 → ℝ)
    (hW : ∀ p ∈ pc, ∀ q ∈ pc, ∀ d, toR (at3 p d) - toR (at3 q d) ≤ W d) :
    ∃ c, compress bits pc = .ok c ∧ c.decompress.length = pc.length ∧
      ∀ (i : Nat) (p : Point3D F64), pc[i]? = some p → ∃ q, c.decompress[i]? = some q ∧ ∀ d, F64.Num (at3 q d) ∧
        -(2 ^ (-48 : ℤ) * M) ≤ toR (at3 p d) - toR (at3 q d) ∧
        toR (at3 p d) - toR (at3 q d) ≤ W d / (2 ^ bits - 1) + 2 ^ (-48 : ℤ) * M := by
  obtain ⟨b, hb, hmin, hmax, hext, hin⟩ := box_of_spread hw hs
  have key : ∀ p ∈ pc, ∀ d, ∃ n : Nat,
      castTo bits ((at3 p d - at3 b.min d) / (Scalar.abs (at3 b.max d - at3 b.min d) / lit (maxValue bits))) = some n ∧
      F64.Num (at3 b.min d + Scalar.abs (at3 b.max d - at3 b.min d) / lit (maxValue bits) * lit n) ∧
      -(2 ^ (-48 : ℤ) * M) ≤ toR (at3 p d) - toR (at3 b.min d + Scalar.abs (at3 b.max d - at3 b.min d) / lit (maxValue bits) * lit n) ∧
      toR (at3 p d) - toR (at3 b.min d + Scalar.abs (at3 b.max d - at3 b.min d) / lit (maxValue bits) * lit n)
        ≤ W d / (2 ^ bits - 1) + 2 ^ (-48 : ℤ) * M := by
    intro p hp d
    obtain ⟨q, hq, e⟩ := hmin d
    obtain ⟨r, hr, e'⟩ := hmax d
    have hi := hin p hp d
    have hx := hext d
    have hWd := hW r hr q hq d
    rw [e, e'] at hi hx
    rw [e, e']
    obtain ⟨n, a1, a2, a3, a4⟩ := quant1 (hw q hq d).1 (hw r hr d).1 (hw p hp d).1 hi.1 hi.2 hM (hw q hq d).2 (hw r hr d).2 hx h0 h48
    refine ⟨n, a1, a2, a3, a4.trans ?_⟩
    have h2 : (2:ℝ) ^ 1 ≤ 2 ^ bits := pow_le_pow_right₀ one_le_two h0
    have := div_le_div_of_nonneg_right hWd (show (0:ℝ) ≤ 2 ^ bits - 1 by linarith)
    linarith only [this]
  classical
  let g : Point3D F64 → CompressedPoint3D := fun p =>
    if hp : p ∈ pc then ⟨(key p hp 0).choose, (key p hp 1).choose, (key p hp 2).choose⟩ else ⟨0, 0, 0⟩
  have hg : ∀ p (hp : p ∈ pc), g p = ⟨(key p hp 0).choose, (key p hp 1).choose, (key p hp 2).choose⟩ := fun p hp => dif_pos hp
  have hcomp : ∀ p ∈ pc, compressPoint bits b.min (Scalar.abs (b.max.x - b.min.x) / lit (maxValue bits))
      (Scalar.abs (b.max.y - b.min.y) / lit (maxValue bits)) (Scalar.abs (b.max.z - b.min.z) / lit (maxValue bits)) p
      = .ok (g p) := by
    intro p hp
    rw [hg p hp]
    have e0 := (key p hp 0).choose_spec.1
    have e1 := (key p hp 1).choose_spec.1
    have e2 := (key p hp 2).choose_spec.1
    unfold compressPoint
    simp only [at3_zero, at3_one, at3_two] at e0 e1 e2
    rw [e0, e1, e2]
    rfl
  refine ⟨_, by unfold compress; rw [hb]; dsimp only; rw [mapM_ok _ g pc hcomp], by simp [decompress], ?_⟩
  intro i p hp
  have hmem : p ∈ pc := List.mem_of_getElem? hp
  refine ⟨_, by simp only [decompress, List.getElem?_map, hp]; rfl, ?_⟩
  rw [hg p hmem]
  rw [Spec.forall_fin3]
  exact ⟨(key p hmem 0).choose_spec.2, (key p hmem 1).choose_spec.2, (key p hmem 2).choose_spec.2⟩

/-- C42 is violated by 64 and 128 bit integers with doubles: compressing fails for every cloud of finite coordinates,
whatever its extent -/
theorem c42_wide_fails_f64 (bits : Nat) (hbits : bits = 64 ∨ bits = 128) (pc : List (Point3D F64)) (M : ℝ)
    (hM : M ≤ 2 ^ (1020 : ℤ)) (hw : CloudWithin pc M) (hs : Spread pc) :
    compress bits pc = .error .NumberConversionError := by
  obtain ⟨b, hb, hmin, hmax, hext, hin⟩ := box_of_spread hw hs
  unfold compress
  rw [hb]
  dsimp only
  rw [mapM_error]
  · intro p _ e'
    unfold compressPoint
    cases castTo bits ((p.x - b.min.x) / _) with
    | none => intro h; cases h; rfl
    | some x =>
      cases castTo bits ((p.y - b.min.y) / _) with
      | none => intro h; cases h; rfl
      | some y =>
        cases castTo bits ((p.z - b.min.z) / _) with
        | none => intro h; cases h; rfl
        | some z => intro h; cases h
  · obtain ⟨q, hq, e⟩ := hmin 0
    obtain ⟨r, hr, e'⟩ := hmax 0
    refine ⟨r, hr, ?_⟩
    have hx := hext 0
    rw [e, e'] at hx
    simp only [at3_zero] at e e' hx
    have nq := hw q hq 0
    have nr := hw r hr 0
    simp only [at3_zero] at nq nr
    obtain ⟨q1, q2⟩ := abs_le.1 nq.2
    obtain ⟨r1, r2⟩ := abs_le.1 nr.2
    have hx0 : 0 < toR r.x - toR q.x := lt_of_lt_of_le (zpow_pos two_pos _) hx
    have hle : toR r.x - toR q.x ≤ 2 ^ (1023 : ℤ) := by
      have : (2:ℝ) ^ (1023 : ℤ) = 8 * 2 ^ (1020 : ℤ) := by
        rw [show (1023 : ℤ) = 3 + 1020 by norm_num, zpow_add₀ two_ne_zero]; norm_num
      rw [this]
      generalize (2:ℝ) ^ (1020 : ℤ) = B at *
      linarith only [r2, q1, hM, hx0]
    obtain ⟨y1, y2⟩ := toR_sub nr.1 nq.1 (by rw [abs_of_pos hx0]; exact hle)
    rw [abs_of_pos hx0, u_small] at y2
    obtain ⟨y21, -⟩ := abs_le.1 y2
    have hy : 2 ^ (-801 : ℤ) ≤ toR (r.x - q.x) := by
      have h1 : (2:ℝ) ^ (-800 : ℤ) = 2 * 2 ^ (-801 : ℤ) := by
        rw [show (-800 : ℤ) = 1 + -801 by norm_num, zpow_add₀ two_ne_zero]; norm_num
      rw [h1] at hx
      generalize (2:ℝ) ^ (-801 : ℤ) = B at *
      linarith only [hx, y21, hx0]
    have habs : Scalar.abs (r.x - q.x) = r.x - q.x := by
      generalize r.x - q.x = Y at *
      obtain ⟨s, m, rfl, rr, -, e1⟩ := y1.form
      have : 0 < val s m := by
        have := lt_of_lt_of_le (zpow_pos two_pos _) hy
        rw [e1] at this; exact_mod_cast this
      cases s with
      | false => rfl
      | true =>
        simp only [val, if_true] at this
        linarith [rr.1]
    have hlit : (lit (maxValue bits) : F64) = .fin false (2 ^ bits) := by
      rcases hbits with rfl | rfl <;> decide +kernel
    have : castTo bits ((r.x - b.min.x) / (Scalar.abs (b.max.x - b.min.x) / lit (maxValue bits))) = none := by
      unfold castTo
      rw [if_neg (by omega : ¬ bits < 64), e, e', habs, hlit, div_div_pow y1 hy (by omega), if_neg]
      rw [Bool.and_eq_true]
      rintro ⟨-, h⟩
      have h : F64.lt (.fin false (2 ^ bits)) (.fin false (2 ^ bits)) = true := h
      rw [F64.lt_iff] at h
      exact lt_irrefl _ h.2.2
    unfold compressPoint
    rw [this]

/-- C42 is violated by very small clouds with doubles: two points `2^-1074` apart in every direction have a
bounding box, but the unit becomes 0 and compressing fails for any integer type -/
theorem c42_violated_tiny :
    let t := F64.fin false (2 ^ (-1074 : ℤ))
    let pc : List (Point3D F64) := [⟨F64.ofRat 0, F64.ofRat 0, F64.ofRat 0⟩, ⟨t, t, t⟩]
    (∃ b, BoundingBox3D.fromIterator pc = .ok b) ∧ (compress 8 pc).toOption.isNone = true ∧
      (compress 16 pc).toOption.isNone = true ∧ (compress 32 pc).toOption.isNone = true := by
  refine ⟨⟨⟨⟨F64.ofRat 0, F64.ofRat 0, F64.ofRat 0⟩, ⟨.fin false (2 ^ (-1074 : ℤ)), .fin false (2 ^ (-1074 : ℤ)), .fin false (2 ^ (-1074 : ℤ))⟩⟩, by decide +kernel⟩, ?_, ?_, ?_⟩
  all_goals decide +kernel

/-- C42 with doubles: the bounding box, which exact arithmetic keeps, is not kept: the largest coordinate 33 gets
unit 254 of 255 and comes back as 32.87; and a coordinate may increase -/
theorem c42_violated_rounding :
    (let pc : List (Point3D F64) := [⟨f 0, f 0, f 0⟩, ⟨f 33, f 1, f 1⟩]
     ((compress 8 pc).toOption.bind fun c => c.decompress[1]?.map fun q => Scalar.lt q.x (f (329/10))) = some true) ∧
    (let pc : List (Point3D F64) := [⟨f (-4/10), f 0, f 0⟩, ⟨f (-1/10), f 1, f 1⟩, ⟨f (-1/10), f 1, f 1⟩]
     ((compress 8 pc).toOption.bind fun c => c.decompress[1]?.map fun q => Scalar.lt (f (-1/10)) q.x) = some true) := by
  decide +kernel

/-- the hypotheses of `c42_error_f64_partial` and `c42_wide_fails_f64` are met -/
example : let pc := ([⟨f 0, f 0, f 0⟩, ⟨f 3, f 5, f (1/10)⟩] : List (Point3D F64))
    CloudWithin pc 7 ∧ Spread pc := by
  have h0 := ex_num 0 false 0 (by decide +kernel)
  have h1 := ex_num 5 false 5 (by decide +kernel)
  have h2 := ex_num (1/10) false (3602879701896397 / 36028797018963968) (by decide +kernel)
  have h3 := ex_num 3 false 3 (by decide +kernel)
  have hp : (2:ℝ) ^ (-800 : ℤ) ≤ 1 / 32 := by
    rw [show (1:ℝ) / 32 = 2 ^ (-5 : ℤ) by norm_num]
    exact zpow_le_zpow_right₀ one_le_two (by norm_num)
  constructor
  · simp only [CloudWithin, List.mem_cons, List.not_mem_nil, or_false, forall_eq_or_imp, forall_eq, Spec.forall_fin3,
      at3_zero, at3_one, at3_two, h0, h1, h2, h3, val]
    norm_num
  · intro d
    refine ⟨_, List.mem_cons_of_mem _ (List.mem_cons_self ..), _, List.mem_cons_self .., hp.trans ?_⟩
    revert d
    simp only [Spec.forall_fin3, at3_zero, at3_one, at3_two, h0, h1, h2, h3, val]
    norm_num

end CompressedPointCloud3D
end R3D
