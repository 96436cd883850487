import Verif.Lemmas.F64Grid
import Verif.Lemmas.F64Err
/-!
Square roots of whole numbers of steps: comparisons with steps and with each other are exact.
-/
namespace R3D
namespace F64
open Scalar LawfulScalar

namespace Grid
variable {e : ℤ} {N N' n : ℤ} {S S' R : F64}

theorem nonNeg_fin (h : Grid e N S) (hS : NonNeg S) : ∃ m : ℚ, S = .fin false m ∧ Rep (.fin false m) ∧ m = N * 2 ^ e ∧ 0 ≤ N := by
  rcases hS with rfl | ⟨m, rfl, hr⟩
  · obtain ⟨⟨s, m, h⟩, -⟩ := h.1
    cases h
  · have h2 := h.2
    rw [real_fin] at h2
    have hm : m = N * 2 ^ e := by simpa [val] using val_eq h2
    refine ⟨m, rfl, hr, hm, ?_⟩
    by_contra hn
    have : (N : ℚ) * 2 ^ e < 0 := mul_neg_of_neg_of_pos (by exact_mod_cast not_le.1 hn) (two_zpow_pos _)
    rw [← hm] at this
    exact absurd hr.1 (not_le.2 this)

/-- the computed root: finite, and its square is close -/
theorem sqrt_num (h : Grid (e + e) N S) (hS : NonNeg S) (hN : N < 2 ^ 52) (he : e ≤ 400) :
    Num (Scalar.sqrt S) ∧ 0 ≤ toR (Scalar.sqrt S) ∧
      |toR (Scalar.sqrt S) * toR (Scalar.sqrt S) - N * (2 ^ e * 2 ^ e)| ≤ 10 * 2 ^ (-55 : ℤ) * (N * (2 ^ e * 2 ^ e)) := by
  obtain ⟨m, rfl, hr, hm, h0⟩ := h.nonNeg_fin hS
  have hlt : m < 2 ^ (1024 : ℤ) := by
    rw [hm]
    calc (N : ℚ) * 2 ^ (e + e) ≤ 2 ^ (52 : ℤ) * 2 ^ (900 : ℤ) := by
          refine mul_le_mul ?_ (zpow_le_zpow_right₀ (by norm_num) (by omega)) (two_zpow_pos _).le (two_zpow_pos _).le
          have : (N : ℚ) ≤ ((2 ^ 52 : ℤ) : ℚ) := by exact_mod_cast hN.le
          exact this.trans (by norm_num)
      _ = 2 ^ (952 : ℤ) := by rw [← zpow_add₀ two_ne_zero]; norm_num
      _ < 2 ^ (1024 : ℤ) := zpow_lt_zpow_right₀ (by norm_num) (by norm_num)
  obtain ⟨D, hD⟩ := sqrt_fin hr.1 hlt
  obtain ⟨m', hm', -, D0, hE⟩ := sqrt_err hS hD
  obtain rfl : m = m' := (F64.fin.inj hm').2
  have hrD : Rep (.fin false D) := by rw [← hD]; exact sqrt_rep _
  rw [hD, real_fin]
  refine ⟨Num.mk' hrD, by simp [val]; exact_mod_cast D0, ?_⟩
  simp only [val, Bool.false_eq_true, if_false]
  have h1 : ((|D * D - m| : ℚ) : ℝ) ≤ ((10 * 2 ^ (-55 : ℤ) * m : ℚ) : ℝ) := by exact_mod_cast hE
  rw [hm, zpow_add₀ two_ne_zero] at h1
  push_cast at h1
  exact h1

theorem sqrt_lt (h : Grid (e + e) N S) (hS : NonNeg S) (h' : Grid (e + e) N' S') (hS' : NonNeg S') (hN : N < 2 ^ 50) (hN' : N' < 2 ^ 50)
    (he : e ≤ 400) : toR (Scalar.sqrt S) < toR (Scalar.sqrt S') ↔ N < N' := by
  obtain ⟨n1, p1, e1⟩ := h.sqrt_num hS (by omega) he
  obtain ⟨n2, p2, e2⟩ := h'.sqrt_num hS' (by omega) he
  obtain ⟨m1, r1, -, -, q1⟩ := h.nonNeg_fin hS
  obtain ⟨m2, r2, -, -, q2⟩ := h'.nonNeg_fin hS'
  constructor
  · intro hlt
    by_contra hle
    have hk : key S' ≤ key S := by
      rw [h.1.key, h'.1.key, h.2, h'.2, EReal.coe_le_coe_iff]
      exact mul_le_mul_of_nonneg_right (by exact_mod_cast not_lt.1 hle) (zpow_pos two_pos _).le
    have := key_sqrt_mono hS' hS hk
    rw [n1.key, n2.key, EReal.coe_le_coe_iff] at this
    exact absurd hlt (not_lt.2 this)
  · intro hlt
    set D := toR (Scalar.sqrt S)
    set D' := toR (Scalar.sqrt S')
    have g0 : (0:ℝ) < 2 ^ e * 2 ^ e := by positivity
    generalize (2:ℝ) ^ e * 2 ^ e = g at *
    have hR : (N : ℝ) + 1 ≤ N' := by exact_mod_cast hlt
    have hR2 : (N' : ℝ) ≤ 2 ^ 50 := by exact_mod_cast hN'.le
    have hR1 : (0:ℝ) ≤ N := by exact_mod_cast q1
    have k1 := (abs_le.1 e1).2
    have k2 := (abs_le.1 e2).1
    have u : (10:ℝ) * 2 ^ (-55 : ℤ) = 10 / 2 ^ 55 := by norm_num
    rw [u] at k1 k2
    have hsq : D * D < D' * D' := by
      have a1 : D * D ≤ (N + 10 / 2 ^ 55 * N) * g := by linarith
      have a2 : (N' - 10 / 2 ^ 55 * N') * g ≤ D' * D' := by linarith
      refine lt_of_le_of_lt a1 (lt_of_lt_of_le (mul_lt_mul_of_pos_right ?_ g0) a2)
      norm_num
      norm_num at hR2
      linarith
    exact lt_of_mul_self_lt_mul_self₀ p2 hsq

theorem sqrt_le_step (h : Grid (e + e) N S) (hS : NonNeg S) (hR : Grid e n R) (hn : 0 ≤ n) (hn' : n < 2 ^ 25) (hN : N < 2 ^ 51) (he : e ≤ 400) :
    toR (Scalar.sqrt S) ≤ toR R ↔ N ≤ n * n := by
  obtain ⟨n1, p1, e1⟩ := h.sqrt_num hS (by omega) he
  obtain ⟨m, rS, hr, hm, q⟩ := h.nonNeg_fin hS
  have hnn : n * n < 2 ^ 50 := by nlinarith
  rw [hR.2]
  constructor
  · intro hle
    by_contra hc
    push Not at hc
    have hsq : toR (Scalar.sqrt S) * toR (Scalar.sqrt S) ≤ (n * 2 ^ e) * (n * 2 ^ e) := mul_self_le_mul_self p1 hle
    have g0 : (0:ℝ) < 2 ^ e * 2 ^ e := by positivity
    have e3 : (n:ℝ) * 2 ^ e * (n * 2 ^ e) = (n * n) * (2 ^ e * 2 ^ e) := by ring
    rw [e3] at hsq
    generalize (2:ℝ) ^ e * 2 ^ e = g at *
    have hR : (n : ℝ) * n + 1 ≤ N := by exact_mod_cast hc
    have hR2 : (N : ℝ) ≤ 2 ^ 51 := by exact_mod_cast hN.le
    have k2 := (abs_le.1 e1).1
    have u : (10:ℝ) * 2 ^ (-55 : ℤ) = 10 / 2 ^ 55 := by norm_num
    rw [u] at k2
    have a2 : (N - 10 / 2 ^ 55 * N) * g ≤ (n * n) * g := by linarith
    have a3 := le_of_mul_le_mul_right a2 g0
    norm_num at a3 hR2
    linarith
  · intro hle
    subst rS
    have hR0 : (0:ℝ) ≤ n * 2 ^ e := mul_nonneg (by exact_mod_cast hn) (zpow_pos two_pos _).le
    rcases q.eq_or_lt with q0 | q0
    · have : m = 0 := by rw [hm, ← q0]; simp
      subst this
      have : toR (Scalar.sqrt (.fin false 0)) = 0 := by
        show toR (F64.sqrt _) = 0
        simp [F64.sqrt, real_fin, val]
      rw [this]
      exact hR0
    · have m0 : 0 < m := by rw [hm]; exact mul_pos (by exact_mod_cast q0) (two_zpow_pos _)
      -- the multiple
      have hh := (hlog_spec m0).1
      have hK : 56 ≤ hlog m + sqrtK m := by unfold sqrtK hlog; omega
      have hl : hlog m < 26 + e := by
        have : (2:ℚ) ^ hlog m * 2 ^ hlog m < 2 ^ (26 + e) * 2 ^ (26 + e) := by
          refine hh.trans_lt ?_
          rw [hm, ← zpow_add₀ two_ne_zero, show 26 + e + (26 + e) = 52 + (e + e) by ring, zpow_add₀ two_ne_zero 52]
          refine mul_lt_mul_of_pos_right ?_ (two_zpow_pos _)
          have : (N : ℚ) < ((2 ^ 52 : ℤ) : ℚ) := by exact_mod_cast (show N < 2 ^ 52 by omega)
          exact this.trans_le (by norm_num)
        have := lt_of_mul_self_lt_mul_self₀ (two_zpow_pos _).le this
        exact (zpow_lt_zpow_iff_right₀ one_lt_two).1 this
      obtain ⟨d, hd⟩ : ∃ d : ℕ, e = d + -sqrtK m := ⟨(e + sqrtK m).toNat, by omega⟩
      obtain ⟨k, rfl⟩ := Int.eq_ofNat_of_zero_le hn
      have hb : (k : ℚ) * 2 ^ e = ((k * 2 ^ d : ℕ) : ℚ) * 2 ^ (-sqrtK m) := by
        conv_lhs => rw [hd, zpow_add₀ two_ne_zero]
        push_cast
        rw [zpow_natCast]; ring
      have hcmp := ((sqrtArg_cmp m0 _ hb).2).1 (by
        rw [hm, zpow_add₀ two_ne_zero]
        have : (N : ℚ) ≤ ((k * k : ℤ) : ℚ) := by exact_mod_cast hle
        push_cast at this
        calc (N : ℚ) * (2 ^ e * 2 ^ e) ≤ (k * k) * (2 ^ e * 2 ^ e) := mul_le_mul_of_nonneg_right this (by positivity)
          _ = _ := by ring)
      have hrep : Rep (.fin false ((k : ℚ) * 2 ^ e)) := by
        obtain ⟨s, p, rfl, r, -, e2⟩ := hR.1.form
        have h1 := val_eq (e2.symm.trans hR.2)
        have hp : p = (k : ℚ) * 2 ^ e := by
          have k0 : (0:ℚ) ≤ (k : ℚ) * 2 ^ e := mul_nonneg (Nat.cast_nonneg _) (two_zpow_pos _).le
          have p0 : 0 ≤ p := r.1
          cases s
          · simpa [val] using h1
          · simp only [val, if_true, Int.cast_natCast] at h1
            linarith
        exact hp ▸ r
      have hkey : key (round false (sqrtArg m)) ≤ key (round false ((k : ℚ) * 2 ^ e)) := key_round_mono hcmp
      have n2 : Scalar.sqrt (.fin false m : F64) = round false (sqrtArg m) := sqrt_fin_pos m0
      rw [n2] at n1 ⊢
      rw [round_exact _ hrep, n1.key, (Num.mk' hrep).key, EReal.coe_le_coe_iff, real_fin] at hkey
      refine hkey.trans (le_of_eq ?_)
      simp [val]

end Grid
end F64
end R3D
