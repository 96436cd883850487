import Verif.Props.Bezier
import Verif.Lemmas.F64Appr
import Verif.Lemmas.F64Near
import Verif.Props.CompressFloat
import Verif.Props.InterpFloat
import Verif.Props.ScaleFloat
import Verif.Props.MatrixFloat
/-!
C107: Bezier interpolation of doubles.
-/
namespace R3D
open Scalar Spec F64

/-- `powi` for arguments from 0 to 1: accurate to 2^-47 relative and 2^-1000 absolute, and exact where nothing has to be rounded -/
structure Spec.GoodPowi (P : Powi F64) : Prop where
  zero : ∀ t, F64.Num t → P.powi t 0 = lit 1
  null : ∀ t n, F64.Num t → toR t = 0 → toR (P.powi t (n + 1)) = 0
  one : ∀ t n, F64.Num t → toR t = 1 → toR (P.powi t n) = 1
  near : ∀ t n, F64.Num t → 0 ≤ toR t → toR t ≤ 1 → n ≤ 20 →
    F64.Num (P.powi t n) ∧ |toR (P.powi t n) - toR t ^ n| ≤ 2 ^ (-47 : ℤ) * toR t ^ n + 2 ^ (-1000 : ℤ)

theorem uu_47 : (2:ℝ) ^ (-47 : ℤ) = 64 * uu := by
  rw [uu_53, zpow_neg]; norm_num

theorem pow_uu_two {k : Nat} (h : k ≤ 1000) : (1 + uu) ^ k ≤ 2 := by
  have hk : (k:ℝ) ≤ 1000 := by exact_mod_cast h
  have := pow_uu_le (k := k) (by rw [uu_53]; linarith)
  rw [uu_53] at this ⊢
  linarith

theorem Spec.GoodPowi.appr {P : Powi F64} (hP : GoodPowi P) {t : F64} (ht : F64.Num t) (h0 : 0 ≤ toR t) (h1 : toR t ≤ 1) {n : Nat} (hn : n ≤ 20)
    {x : ℝ} (hx : 0 ≤ x) (he : |toR t - x| ≤ uu * x) : Appr (P.powi t n) (x ^ n) (x ^ n) 90 (2 ^ (-998 : ℤ)) := by
  obtain ⟨h2, h3⟩ := hP.near t n ht h0 h1 hn
  have hxn : 0 ≤ x ^ n := pow_nonneg hx n
  refine ⟨h2, by rw [abs_of_nonneg hxn], by positivity, ?_⟩
  have hu := uu_pos
  have hn' : (n:ℝ) ≤ 20 := by exact_mod_cast hn
  -- the argument
  rw [abs_le] at he
  have up : toR t ^ n ≤ (1 + uu) ^ n * x ^ n := by
    rw [← mul_pow]; exact pow_le_pow_left₀ h0 (by linarith) n
  have lo : (1 - n * uu) * x ^ n ≤ toR t ^ n := by
    have b : 1 + (n:ℝ) * (-uu) ≤ (1 + -uu) ^ n := one_add_mul_le_pow (by rw [uu_53]; norm_num) n
    calc (1 - n * uu) * x ^ n ≤ (1 + -uu) ^ n * x ^ n := mul_le_mul_of_nonneg_right (by linarith) hxn
      _ = ((1 - uu) * x) ^ n := by rw [mul_pow]; ring
      _ ≤ _ := pow_le_pow_left₀ (mul_nonneg (by rw [uu_53]; norm_num) hx) (by linarith) n
  have p1 : (1 + uu) ^ n ≤ 1 + 24 * uu := by
    have b : (1 + uu) ^ n ≤ (1 + uu) ^ 20 := pow_le_pow_right₀ (by linarith) hn
    refine b.trans ?_
    rw [uu_53]; norm_num
  have p2 : 1 + 90 * uu ≤ (1 + uu) ^ 90 := by
    have := one_add_mul_le_pow (show -2 ≤ uu by linarith) 90
    push_cast at this; linarith
  have h4 : |toR t ^ n - x ^ n| ≤ 24 * uu * x ^ n := by
    rw [abs_le]
    have := mul_le_mul_of_nonneg_right p1 hxn
    have := mul_nonneg hu.le hxn
    constructor <;> nlinarith
  have h5 : toR t ^ n ≤ (1 + 24 * uu) * x ^ n := up.trans (mul_le_mul_of_nonneg_right p1 hxn)
  have h6 := abs_add_le (toR (P.powi t n) - toR t ^ n) (toR t ^ n - x ^ n)
  rw [sub_add_sub_cancel] at h6
  have h7 := mul_le_mul_of_nonneg_right p2 hxn
  have h8 : (2:ℝ) ^ (-1000 : ℤ) ≤ 2 ^ (-998 : ℤ) := zpow_le_zpow_right₀ one_le_two (by norm_num)
  rw [uu_47] at h3
  generalize (2:ℝ) ^ (-1000 : ℤ) = T at *
  generalize (2:ℝ) ^ (-998 : ℤ) = T' at *
  have h9 := mul_le_mul_of_nonneg_left h5 (show 0 ≤ 64 * uu by linarith)
  have h10 : 64 * uu * ((1 + 24 * uu) * x ^ n) ≤ 65 * uu * x ^ n := by
    have : 64 * (1 + 24 * uu) ≤ 65 := by rw [uu_53]; norm_num
    nlinarith [mul_nonneg hu.le hxn]
  linarith [mul_nonneg hu.le hxn]

theorem bernstein_nonneg {n k : Nat} {t : ℝ} (h0 : 0 ≤ t) (h1 : t ≤ 1) : 0 ≤ bernstein n k t := by
  unfold bernstein
  have : 0 ≤ 1 - t := by linarith
  positivity

theorem bernstein_le_one {n k : Nat} (hk : k ≤ n) {t : ℝ} (h0 : 0 ≤ t) (h1 : t ≤ 1) : bernstein n k t ≤ 1 := by
  rw [← bernstein_sum n t]
  exact Finset.single_le_sum (f := fun k => bernstein n k t) (fun i _ => bernstein_nonneg h0 h1) (Finset.mem_range.2 (by omega))

theorem appr_weight {b p q : F64} {C x y : ℝ} (a1 : Appr b C C 0 0) (hc : C ≤ 2 ^ 20) (a2 : Appr p x x 90 (2 ^ (-998 : ℤ))) (p0 : x ≤ 1)
    (a3 : Appr q y y 90 (2 ^ (-998 : ℤ))) (q0 : y ≤ 1) : Appr (b * p * q) (C * x * y) (C * x * y) 182 (2 ^ (-970 : ℤ)) := by
  have hu := uu_pos
  have hc0 := a1.pos
  have p0' := a2.pos
  have q0' := a3.pos
  have T1 : (2:ℝ) ^ (-998 : ℤ) ≤ 1 := zpow_le_one_of_nonpos₀ one_le_two (by norm_num)
  have T0 : (0:ℝ) < 2 ^ (-998 : ℤ) := zpow_pos two_pos _
  have T2 : (2:ℝ) ^ (-1075 : ℤ) ≤ 2 ^ (-998 : ℤ) := zpow_le_zpow_right₀ one_le_two (by norm_num)
  have T3 : (2:ℝ) ^ 60 ≤ 2 ^ (1023 : ℤ) := by rw [← zpow_natCast]; exact zpow_le_zpow_right₀ one_le_two (by norm_num)
  have T4 : (2:ℝ) ^ (-970 : ℤ) = 2 ^ 28 * 2 ^ (-998 : ℤ) := by rw [← zpow_natCast, ← zpow_add₀ two_ne_zero]; norm_num
  have r90 := pow_uu_two (k := 90) (by norm_num)
  have r91 := pow_uu_two (k := 91) (by norm_num)
  have r90' := one_le_pow_uu 90
  have r91' := one_le_pow_uu 91
  have f1 : 0 ≤ (1 + uu) ^ 90 * x := mul_nonneg (by linarith) p0'
  have f2 : 0 ≤ (1 + uu) ^ 90 * y := mul_nonneg (by linarith) q0'
  have f3 : (1 + uu) ^ 90 * x ≤ 2 := by
    calc (1 + uu) ^ 90 * x ≤ 2 * 1 := mul_le_mul r90 p0 p0' (by norm_num)
      _ = 2 := by norm_num
  have f4 : (1 + uu) ^ 90 * y ≤ 2 := by
    calc (1 + uu) ^ 90 * y ≤ 2 * 1 := mul_le_mul r90 q0 q0' (by norm_num)
      _ = 2 := by norm_num
  have a4 := a1.mul a2 (by
    refine le_trans ?_ T3
    rw [pow_zero, one_mul, add_zero]
    calc C * ((1 + uu) ^ 90 * x + 2 ^ (-998 : ℤ)) ≤ 2 ^ 20 * 3 := mul_le_mul hc (by linarith only [f3, T1]) (by linarith only [f1, T0]) (by norm_num)
      _ ≤ 2 ^ 60 := by norm_num)
  have k0 := mul_le_mul_of_nonneg_right hc T0.le
  have a4' : Appr (b * p) (C * x) (C * x) 91 (2 ^ 22 * 2 ^ (-998 : ℤ)) := a4.mono (by norm_num) (by
    rw [pow_zero, one_mul, zero_mul, zero_mul, add_zero, add_zero]
    generalize (2:ℝ) ^ (-998 : ℤ) = T at *
    generalize (2:ℝ) ^ (-1075 : ℤ) = T' at *
    linarith only [k0, T2, T0])
  have c0 : 0 ≤ C * x := mul_nonneg hc0 p0'
  have c1 : C * x ≤ 2 ^ 20 := by
    calc C * x ≤ 2 ^ 20 * 1 := mul_le_mul hc p0 p0' (by norm_num)
      _ = 2 ^ 20 := by norm_num
  have g0 : 0 ≤ (1 + uu) ^ 91 * (C * x) := mul_nonneg (by linarith) c0
  have g1 : (1 + uu) ^ 91 * (C * x) ≤ 2 ^ 21 := by
    calc (1 + uu) ^ 91 * (C * x) ≤ 2 * 2 ^ 20 := mul_le_mul r91 c1 c0 (by norm_num)
      _ = 2 ^ 21 := by norm_num
  have a5 := a4'.mul a3 (by
    refine le_trans ?_ T3
    calc ((1 + uu) ^ 91 * (C * x) + 2 ^ 22 * 2 ^ (-998 : ℤ)) * ((1 + uu) ^ 90 * y + 2 ^ (-998 : ℤ)) ≤ 2 ^ 23 * 3 :=
          mul_le_mul (by linarith only [g1, T1]) (by linarith only [f4, T1]) (by linarith only [f2, T0]) (by norm_num)
      _ ≤ 2 ^ 60 := by norm_num)
  refine a5.mono (by norm_num) ?_
  rw [T4]
  have k1 := mul_le_mul_of_nonneg_right g1 T0.le
  have k2 := mul_le_mul_of_nonneg_left f4 (show 0 ≤ 2 ^ 22 * (2:ℝ) ^ (-998 : ℤ) by positivity)
  have k3 := mul_le_mul_of_nonneg_left T1 (show 0 ≤ 2 ^ 22 * (2:ℝ) ^ (-998 : ℤ) by positivity)
  generalize (2:ℝ) ^ (-998 : ℤ) = T at *
  generalize (2:ℝ) ^ (-1075 : ℤ) = T' at *
  linarith only [k1, k2, k3, T2, T0]

theorem weight_appr {P : Powi F64} (hP : GoodPowi P) {t : F64} (ht : F64.Num t) (h0 : 0 ≤ toR t) (h1 : toR t ≤ 1) {n k : Nat}
    (hn : n ≤ 20) (hk : k ≤ n) : ∃ w : F64, bernsteinPolynomial n k t = some w ∧
      Appr w (bernstein n k (toR t)) (bernstein n k (toR t)) 182 (2 ^ (-970 : ℤ)) := by
  have hu := uu_pos
  refine ⟨_, by simp only [bernsteinPolynomial, binominal_eq n k hn hk]; rfl, ?_⟩
  have hc20 : n.choose k ≤ 2 ^ 20 := (Nat.choose_le_two_pow n k).trans (Nat.pow_le_pow_right (by norm_num) hn)
  obtain ⟨nb, eb⟩ := lit_nat (k := n.choose k) (by omega)
  have hc : ((n.choose k : ℕ) : ℝ) ≤ 2 ^ 20 := by exact_mod_cast hc20
  have hc0 : (0:ℝ) ≤ (n.choose k : ℕ) := by positivity
  have a1 : Appr (lit (n.choose k : ℕ) : F64) (n.choose k : ℕ) (n.choose k : ℕ) 0 0 := by
    have := Appr.exact nb (le_of_eq (abs_of_nonneg (by rw [eb]; exact hc0)))
    rwa [eb] at this
  have a2 := hP.appr ht h0 h1 (hk.trans hn) h0 (by simp; positivity)
  obtain ⟨n1, e1⟩ := lit_nat (k := 1) (by norm_num)
  have l1 : (lit 1 : F64) = lit ((1:ℕ):ℚ) := by norm_num
  have hs : |toR (lit 1 : F64) - toR t| ≤ 1 := by
    rw [l1, e1, abs_le]; constructor <;> push_cast <;> linarith
  obtain ⟨ns, es⟩ := toR_sub (l1 ▸ n1) ht (hs.trans (one_le_zpow₀ one_le_two (by norm_num)))
  have e1' : toR (lit 1 : F64) = 1 := by rw [l1, e1]; norm_num
  rw [e1'] at es
  have x0 : 0 ≤ 1 - toR t := by linarith
  change |toR (lit 1 - t) - (1 - toR t)| ≤ uu * |1 - toR t| at es
  rw [abs_of_nonneg x0] at es
  have es' := abs_le.1 es
  have s0 : 0 ≤ toR (lit 1 - t : F64) := by
    have : uu * (1 - toR t) ≤ 1 * (1 - toR t) := mul_le_mul_of_nonneg_right (by rw [uu_53]; norm_num) x0
    linarith
  have s1 : toR (lit 1 - t : F64) ≤ 1 := by
    have n1' : F64.Num (lit 1 : F64) := by rw [l1]; exact n1
    have := key_add_le n1' ht.neg n1' (by rw [toR_neg ht]; linarith)
    rw [← sub_eq_add_neg', ns.key, n1'.key, EReal.coe_le_coe_iff, e1'] at this
    exact this
  have a3 := hP.appr ns s0 s1 (n := n - k) (by omega) x0 es
  exact appr_weight a1 hc (a2.mono (by norm_num) le_rfl) (pow_le_one₀ h0 h1) a3 (pow_le_one₀ x0 (by linarith))

/-- a term `w * p` of a coordinate -/
theorem term_appr {w c : F64} {W M : ℝ} (a : Appr w W W 182 (2 ^ (-970 : ℤ))) (hW : W ≤ 1) (hc : F64.Num c) (hM : |toR c| ≤ M)
    (h1 : 2 ^ (-100 : ℤ) ≤ M) (h2 : M ≤ 2 ^ (500 : ℤ)) : Appr (w * c) (W * toR c) (W * M) 183 (2 ^ (-900 : ℤ) * M) := by
  have r := pow_uu_two (k := 182) (by norm_num)
  have r' := one_le_pow_uu 182
  have hW0 := a.pos
  have T0 : (0:ℝ) < 2 ^ (-970 : ℤ) := zpow_pos two_pos _
  have T1 : (2:ℝ) ^ (-970 : ℤ) ≤ 1 := zpow_le_one_of_nonpos₀ one_le_two (by norm_num)
  have M0 : 0 < M := (zpow_pos two_pos _).trans_le h1
  have T3 : 3 * (2:ℝ) ^ (500 : ℤ) ≤ 2 ^ (1023 : ℤ) := by
    calc 3 * (2:ℝ) ^ (500 : ℤ) ≤ 2 ^ (2 : ℤ) * 2 ^ (500 : ℤ) := mul_le_mul_of_nonneg_right (by norm_num) (zpow_pos two_pos _).le
      _ = 2 ^ (502 : ℤ) := by rw [← zpow_add₀ two_ne_zero]; norm_num
      _ ≤ _ := zpow_le_zpow_right₀ one_le_two (by norm_num)
  have f1 : (1 + uu) ^ 182 * W ≤ 2 := by
    calc (1 + uu) ^ 182 * W ≤ 2 * 1 := mul_le_mul r hW hW0 (by norm_num)
      _ = 2 := by norm_num
  have := a.mul (Appr.exact hc hM) (by
    rw [pow_zero, one_mul, add_zero]
    calc ((1 + uu) ^ 182 * W + 2 ^ (-970 : ℤ)) * M ≤ 3 * 2 ^ (500 : ℤ) := mul_le_mul (by linarith only [f1, T1]) h2 M0.le (by norm_num)
      _ ≤ _ := T3)
  refine this.mono (by norm_num) ?_
  rw [pow_zero, one_mul, mul_zero, mul_zero, zero_add, add_zero]
  have T4 : (2:ℝ) ^ (-900 : ℤ) = 2 ^ 70 * 2 ^ (-970 : ℤ) := by rw [← zpow_natCast, ← zpow_add₀ two_ne_zero]; norm_num
  have T5 : (2:ℝ) ^ (-1075 : ℤ) ≤ 2 ^ (-970 : ℤ) * M := by
    calc (2:ℝ) ^ (-1075 : ℤ) ≤ 2 ^ (-1070 : ℤ) := zpow_le_zpow_right₀ one_le_two (by norm_num)
      _ = 2 ^ (-970 : ℤ) * 2 ^ (-100 : ℤ) := by rw [← zpow_add₀ two_ne_zero]; norm_num
      _ ≤ _ := mul_le_mul_of_nonneg_left h1 T0.le
  rw [T4]
  have := mul_pos T0 M0
  generalize (2:ℝ) ^ (-970 : ℤ) = T at *
  generalize (2:ℝ) ^ (-1075 : ℤ) = T' at *
  linarith

/-- adding one more term -/
theorem step_appr {x y : F64} {X Y A W M e : ℝ} {k : Nat} (a : Appr x X (M * A) k (e * M)) (b : Appr y Y (W * M) 183 (2 ^ (-900 : ℤ) * M))
    (hk : 183 ≤ k) (hk2 : k ≤ 300) (hA : A ≤ 30) (hW : W ≤ 1) (he : e ≤ 1) (h1 : 2 ^ (-100 : ℤ) ≤ M) (h2 : M ≤ 2 ^ (500 : ℤ)) :
    Appr (x + y) (X + Y) (M * (A + W)) (k + 1) (2 * (e + 2 ^ (-900 : ℤ)) * M) := by
  have M0 : 0 < M := (zpow_pos two_pos _).trans_le h1
  have T1 : (2:ℝ) ^ (-900 : ℤ) ≤ 1 := zpow_le_one_of_nonpos₀ one_le_two (by norm_num)
  have r := pow_uu_two (k := k) (by omega)
  have hA0 := a.pos
  have hW0 := b.pos
  have T3 : 100 * (2:ℝ) ^ (500 : ℤ) ≤ 2 ^ (1023 : ℤ) := by
    calc 100 * (2:ℝ) ^ (500 : ℤ) ≤ 2 ^ (7 : ℤ) * 2 ^ (500 : ℤ) := mul_le_mul_of_nonneg_right (by norm_num) (zpow_pos two_pos _).le
      _ = 2 ^ (507 : ℤ) := by rw [← zpow_add₀ two_ne_zero]; norm_num
      _ ≤ _ := zpow_le_zpow_right₀ one_le_two (by norm_num)
  have k1 : M * A ≤ 30 * M := by nlinarith only [hA, M0]
  have k2 : W * M ≤ M := by nlinarith only [hW, M0]
  have k3 : e * M ≤ M := by nlinarith only [he, M0]
  have k4 : 2 ^ (-900 : ℤ) * M ≤ M := by
    generalize (2:ℝ) ^ (-900 : ℤ) = T at *
    nlinarith only [T1, M0]
  have := a.add (b.mono hk le_rfl) (by
    calc (1 + uu) ^ k * (M * A + W * M) + (e * M + 2 ^ (-900 : ℤ) * M) ≤ 2 * (M * A + W * M) + (e * M + 2 ^ (-900 : ℤ) * M) :=
          add_le_add (mul_le_mul_of_nonneg_right r (by linarith only [hA0, hW0])) le_rfl
      _ ≤ 100 * 2 ^ (500 : ℤ) := by
          generalize (2:ℝ) ^ (500 : ℤ) = U at *
          linarith only [k1, k2, k3, k4, h2, M0]
      _ ≤ _ := T3)
  convert this using 1 <;> ring

/-- the loop over the control points -/
theorem loop_appr {P : Powi F64} (hP : GoodPowi P) {t : F64} (ht : F64.Num t) (h0 : 0 ≤ toR t) (h1 : toR t ≤ 1) {n : Nat} (hn : n ≤ 20)
    (path : List (Point2D F64)) (c : Nat → Point2D F64) {M : ℝ} (hM1 : 2 ^ (-100 : ℤ) ≤ M) (hM2 : M ≤ 2 ^ (500 : ℤ))
    (hc : ∀ i < path.length, path[i]? = some (c i) ∧ ∀ d, F64.Num (at2 (c i) d) ∧ |toR (at2 (c i) d)| ≤ M) :
    ∀ (is : List Nat) (x y : F64) (X Y A e : ℝ) (k : Nat), (∀ i ∈ is, i ≤ n ∧ i < path.length) →
      Appr x X (M * A) k (e * M) → Appr y Y (M * A) k (e * M) → 183 ≤ k → k + is.length ≤ 300 → A + is.length ≤ 30 → 0 ≤ e →
      4 ^ is.length * (e + 2 ^ (-900 : ℤ)) ≤ 1 →
      ∃ x' y', controlLoop path n t is (x, y) = some (x', y') ∧
        Appr x' (X + (is.map fun i => bernstein n i (toR t) * toR (c i).x).sum) (M * (A + (is.map fun i => bernstein n i (toR t)).sum))
          (k + is.length) (4 ^ is.length * (e + 2 ^ (-900 : ℤ)) * M) ∧
        Appr y' (Y + (is.map fun i => bernstein n i (toR t) * toR (c i).y).sum) (M * (A + (is.map fun i => bernstein n i (toR t)).sum))
          (k + is.length) (4 ^ is.length * (e + 2 ^ (-900 : ℤ)) * M) := by
  have M0 : 0 < M := (zpow_pos two_pos _).trans_le hM1
  have T0 : (0:ℝ) < 2 ^ (-900 : ℤ) := zpow_pos two_pos _
  intro is
  induction is with
  | nil =>
    intro x y X Y A e k _ hx hy _ _ _ _ _
    refine ⟨x, y, rfl, ?_, ?_⟩ <;> simp only [List.map_nil, List.sum_nil, add_zero, List.length_nil, pow_zero, one_mul]
    · exact hx.mono le_rfl (mul_le_mul_of_nonneg_right (by linarith) M0.le)
    · exact hy.mono le_rfl (mul_le_mul_of_nonneg_right (by linarith) M0.le)
  | cons i is ih =>
    intro x y X Y A e k hi hx hy hk hk2 hA he0 he
    obtain ⟨i1, i2⟩ := hi i (by simp)
    obtain ⟨w, hw, aw⟩ := weight_appr hP ht h0 h1 hn i1
    have w1 := bernstein_le_one i1 h0 h1 (n := n)
    have w0 := bernstein_nonneg h0 h1 (n := n) (k := i)
    obtain ⟨hp, hq⟩ := hc i i2
    have hx2 := hq 0
    have hy2 := hq 1
    rw [at2_zero] at hx2
    rw [at2_one] at hy2
    simp only [List.length_cons, Nat.cast_add, Nat.cast_one] at hk2 hA he
    rw [pow_succ] at he
    have hl : (0:ℝ) ≤ is.length := by positivity
    have p4 : (1:ℝ) ≤ 4 ^ is.length := one_le_pow₀ (by norm_num)
    have he1 : e ≤ 1 := by nlinarith
    have sx := step_appr hx (term_appr aw w1 hx2.1 hx2.2 hM1 hM2) hk (by omega) (by linarith) w1 he1 hM1 hM2
    have sy := step_appr hy (term_appr aw w1 hy2.1 hy2.2 hM1 hM2) hk (by omega) (by linarith) w1 he1 hM1 hM2
    have q : 4 ^ is.length * (2 * (e + 2 ^ (-900 : ℤ)) + 2 ^ (-900 : ℤ)) ≤ 4 ^ is.length * 4 * (e + 2 ^ (-900 : ℤ)) := by
      rw [mul_assoc]
      refine mul_le_mul_of_nonneg_left ?_ (by positivity)
      linarith
    obtain ⟨x', y', h3, h4, h5⟩ := ih _ _ _ _ _ _ _ (fun j hj => hi j (List.mem_cons_of_mem _ hj)) sx sy (by omega) (by omega)
      (by linarith) (by positivity) (q.trans he)
    refine ⟨x', y', ?_, ?_, ?_⟩
    · simp only [controlLoop, hw, hp, Option.bind_eq_bind, Option.bind_some]
      exact h3
    · simp only [List.map_cons, List.sum_cons, List.length_cons, ← add_assoc]
      rw [add_right_comm k] at h4
      refine h4.mono le_rfl ?_
      rw [pow_succ]
      exact mul_le_mul_of_nonneg_right q M0.le
    · simp only [List.map_cons, List.sum_cons, List.length_cons, ← add_assoc]
      rw [add_right_comm k] at h5
      refine h5.mono le_rfl ?_
      rw [pow_succ]
      exact mul_le_mul_of_nonneg_right q M0.le

theorem lit_zero_num : F64.Num (lit 0 : F64) ∧ toR (lit 0 : F64) = 0 := by
  have := lit_nat (k := 0) (by norm_num)
  simpa using this

theorem lit_one_num : F64.Num (lit 1 : F64) ∧ toR (lit 1 : F64) = 1 := by
  have := lit_nat (k := 1) (by norm_num)
  simpa using this

theorem toR_of_key {a b : F64} (ha : F64.Num a) (hb : F64.Num b) (h : F64.key a = F64.key b) : toR a = toR b := by
  rw [ha.key, hb.key, EReal.coe_eq_coe_iff] at h
  exact h

/-- equal products of doubles have equal values -/
theorem toR_mul_congr {a b c d : F64} (ha : F64.Num a) (hb : F64.Num b) (hc : F64.Num c) (hd : F64.Num d)
    (h : toR a * toR b = toR c * toR d) (hn : F64.Num (c * d)) (hs : |toR a * toR b| ≤ 2 ^ (1023 : ℤ)) : F64.Num (a * b) ∧ toR (a * b) = toR (c * d) := by
  have n := (toR_mul ha hb hs).1
  exact ⟨n, toR_of_key n hn (le_antisymm (key_mul_mono ha hb hc hd h.le) (key_mul_mono hc hd ha hb h.ge))⟩

theorem toR_mul_null {a b : F64} (ha : F64.Num a) (hb : F64.Num b) (h : toR a = 0 ∨ toR b = 0) : F64.Num (a * b) ∧ toR (a * b) = 0 := by
  have z : toR a * toR b = 0 := mul_eq_zero.2 h
  have n0 : F64.Num (lit 0 * lit 0 : F64) := by
    rw [show (lit 0 * lit 0 : F64) = lit 0 by decide +kernel]; exact lit_zero_num.1
  have := toR_mul_congr ha hb lit_zero_num.1 lit_zero_num.1 (by rw [z, lit_zero_num.2]; simp) n0 (by rw [z, abs_zero]; positivity)
  rwa [show (lit 0 * lit 0 : F64) = lit 0 by decide +kernel, lit_zero_num.2] at this

theorem toR_one_mul {a b : F64} (ha : F64.Num a) (hb : F64.Num b) (h : toR a = 1) (hs : |toR b| ≤ 2 ^ (1023 : ℤ)) : F64.Num (a * b) ∧ toR (a * b) = toR b := by
  have n := (toR_mul hb lit_one_num.1 (by rwa [lit_one_num.2, mul_one])).1
  have := toR_mul_congr ha hb hb lit_one_num.1 (by rw [h, lit_one_num.2]; ring) n (by rwa [h, one_mul])
  rwa [mul_one_num hb] at this

theorem toR_add_null {a b : F64} (ha : F64.Num a) (hb : F64.Num b) (h : toR b = 0) (hs : |toR a| ≤ 2 ^ (1023 : ℤ)) : F64.Num (a + b) ∧ toR (a + b) = toR a := by
  have n := (toR_add ha hb (by rwa [h, add_zero])).1
  refine ⟨n, toR_of_key n ha (le_antisymm (key_add_le ha hb ha (by rw [h, add_zero])) (le_key_add ha hb ha (by rw [h, add_zero])))⟩

theorem toR_null_add {a b : F64} (ha : F64.Num a) (hb : F64.Num b) (h : toR a = 0) (hs : |toR b| ≤ 2 ^ (1023 : ℤ)) : F64.Num (a + b) ∧ toR (a + b) = toR b := by
  have n := (toR_add ha hb (by rwa [h, zero_add])).1
  refine ⟨n, toR_of_key n hb (le_antisymm (key_add_le ha hb hb (by rw [h, zero_add])) (le_key_add ha hb hb (by rw [h, zero_add])))⟩

/-- the parameter of point `i` -/
theorem bez_param {i n : Nat} (hi : i < n) (hn : n ≤ 2 ^ 50) : F64.Num (lit (i : ℚ) * (lit 1 / lit (n : ℚ)) : F64) ∧
    0 ≤ toR (lit (i : ℚ) * (lit 1 / lit (n : ℚ)) : F64) ∧ toR (lit (i : ℚ) * (lit 1 / lit (n : ℚ)) : F64) ≤ 1 ∧
    |toR (lit (i : ℚ) * (lit 1 / lit (n : ℚ)) : F64) - i / n| ≤ 2 ^ (-51 : ℤ) ∧
    (i = 0 → toR (lit (i : ℚ) * (lit 1 / lit (n : ℚ)) : F64) = 0) := by
  obtain ⟨ni, ei⟩ := lit_nat (k := i) (by omega)
  obtain ⟨nn, en⟩ := lit_nat (k := n) (by omega)
  obtain ⟨n1, e1⟩ := lit_one_num
  obtain ⟨n0, e0⟩ := lit_zero_num
  have hn0 : (1:ℝ) ≤ n := by exact_mod_cast (show 1 ≤ n by omega)
  have hi0 : (0:ℝ) ≤ i := by positivity
  have hin : (i:ℝ) + 1 ≤ n := by exact_mod_cast hi
  have hn50 : (n:ℝ) ≤ 2 ^ 50 := by exact_mod_cast hn
  have q1 : (1:ℝ) / n ≤ 1 := by rw [div_le_one (by linarith)]; exact hn0
  have q0 : (0:ℝ) < 1 / n := by positivity
  have B : (1:ℝ) ≤ 2 ^ (1023 : ℤ) := one_le_zpow₀ one_le_two (by norm_num)
  obtain ⟨nd, ed⟩ := toR_div n1 nn (by rw [en]; positivity) (by rw [e1, en, abs_of_pos q0]; exact q1.trans B)
  rw [e1, en, abs_of_pos q0] at ed
  generalize hd : (lit 1 / lit (n : ℚ) : F64) = d at *
  have T : (2:ℝ) ^ (-1075 : ℤ) ≤ 2 ^ (-200 : ℤ) := zpow_le_zpow_right₀ one_le_two (by norm_num)
  have T' : (2:ℝ) ^ (-200 : ℤ) = 1 / 2 ^ 200 := by rw [zpow_neg]; norm_num
  have U : (2:ℝ) ^ (-53 : ℤ) = 1 / 2 ^ 53 := by rw [zpow_neg]; norm_num
  rw [T'] at T
  generalize (2:ℝ) ^ (-1075 : ℤ) = Z at *
  rw [U] at ed
  have ed' := abs_le.1 ed
  have r50 : 1 / 2 ^ 50 ≤ (1:ℝ) / n := one_div_le_one_div_of_le (by linarith) hn50
  have d0 : 0 ≤ toR d := by
    have h2 : (1:ℝ) / 2 ^ 53 * (1 / n) ≤ 1 / 2 * (1 / n) := by gcongr; norm_num
    have : (1:ℝ) / 2 ^ 200 ≤ 1 / 2 * (1 / 2 ^ 50) := by norm_num
    linarith
  have hni : (i:ℝ) / n + 1 / n ≤ 1 := by rw [← add_div, div_le_one (by linarith)]; exact hin
  have hi1 : (i:ℝ) / n = i * (1 / n) := by ring
  have hin0 : 0 ≤ (i:ℝ) / n := by positivity
  have hi50 : (i:ℝ) ≤ 2 ^ 50 := by linarith
  -- the exact product of `i` and the step
  have p : |i * toR d - i / n| ≤ 1 / 2 ^ 53 * (i / n) + 1 / 2 ^ 150 := by
    rw [hi1, ← mul_sub, _root_.abs_mul, abs_of_nonneg hi0]
    have h2 := mul_le_mul_of_nonneg_left ed hi0
    have h3 := mul_le_mul_of_nonneg_left T hi0
    have h4 : (i:ℝ) * (1 / 2 ^ 200) ≤ 2 ^ 50 * (1 / 2 ^ 200) := by gcongr
    have h5 : (2:ℝ) ^ 50 * (1 / 2 ^ 200) = 1 / 2 ^ 150 := by norm_num
    rw [h5] at h4
    generalize (1:ℝ) / 2 ^ 150 = Y at *
    generalize (1:ℝ) / 2 ^ 200 = Y' at *
    linarith
  have p' := abs_le.1 p
  have i1 : (i:ℝ) / n ≤ 1 := by linarith
  have id0 : 0 ≤ i * toR d := mul_nonneg hi0 d0
  have id1 : i * toR d ≤ 1 := by
    have h2 : (1:ℝ) / 2 ^ 53 * (i / n) ≤ 1 / 2 ^ 53 * 1 := by gcongr
    have h3 : (1:ℝ) / 2 ^ 53 * 1 + 1 / 2 ^ 150 ≤ 1 / 2 ^ 50 := by norm_num
    linarith
  obtain ⟨nt, et⟩ := toR_mul ni nd (by rw [ei, abs_of_nonneg id0]; exact id1.trans B)
  rw [ei, abs_of_nonneg id0, U] at et
  have h00 : (lit 0 * lit 0 : F64) = lit 0 := by decide +kernel
  have h11 : (lit 1 * lit 1 : F64) = lit 1 := by decide +kernel
  refine ⟨nt, ?_, ?_, ?_, ?_⟩
  · have := key_mul_mono n0 n0 ni nd (by rw [e0, ei]; simpa using id0)
    rw [h00, n0.key, nt.key, EReal.coe_le_coe_iff, e0] at this
    exact this
  · have := key_mul_mono ni nd n1 n1 (by rw [e1, ei]; simpa using id1)
    rw [h11, n1.key, nt.key, EReal.coe_le_coe_iff, e1] at this
    exact this
  · have h2 := abs_add_le (toR (lit (i : ℚ) * d) - i * toR d) (i * toR d - i / n)
    rw [sub_add_sub_cancel] at h2
    refine h2.trans ?_
    rw [show (2:ℝ) ^ (-51 : ℤ) = 1 / 2 ^ 51 by rw [zpow_neg]; norm_num]
    have e1 : (1:ℝ) / 2 ^ 53 * (i / n) ≤ 1 / 2 ^ 53 * 1 := by gcongr
    have e2 : (1:ℝ) / 2 ^ 53 * (i * toR d) ≤ 1 / 2 ^ 53 * 1 := by gcongr
    have T2 : (2:ℝ) ^ (-1075 : ℤ) ≤ 2 ^ (-200 : ℤ) := zpow_le_zpow_right₀ one_le_two (by norm_num)
    rw [T'] at T2
    have e3 : (1:ℝ) / 2 ^ 53 * 1 + 1 / 2 ^ 53 * 1 + 1 / 2 ^ 150 + 1 / 2 ^ 200 ≤ 1 / 2 ^ 51 := by norm_num
    linarith
  · rintro rfl
    exact (toR_mul_null ni nd (Or.inl (by rw [ei]; simp))).2

theorem weight_first {P : Powi F64} (hP : GoodPowi P) {t : F64} (ht : F64.Num t) (h0 : toR t = 0) {n k : Nat} (hn : n ≤ 20) (hk : k ≤ n)
    {w : F64} (hw : bernsteinPolynomial n k t = some w) : F64.Num w ∧ toR w = if k = 0 then 1 else 0 := by
  simp only [bernsteinPolynomial, binominal_eq n k hn hk, Option.bind_eq_bind, Option.bind_some, Option.some.injEq] at hw
  have hc20 : n.choose k ≤ 2 ^ 20 := (Nat.choose_le_two_pow n k).trans (Nat.pow_le_pow_right (by norm_num) hn)
  obtain ⟨nb, eb⟩ := lit_nat (k := n.choose k) (by omega)
  obtain ⟨n1, e1⟩ := lit_one_num
  have B : (1:ℝ) ≤ 2 ^ (1023 : ℤ) := one_le_zpow₀ one_le_two (by norm_num)
  obtain ⟨ns, es⟩ := toR_add_null n1 ht.neg (by rw [toR_neg ht, h0, neg_zero]) (by rw [e1, abs_one]; exact B)
  rw [← sub_eq_add_neg', e1] at es
  rw [← sub_eq_add_neg'] at ns
  have pt := (hP.near t k ht h0.ge (by rw [h0]; norm_num) (hk.trans hn)).1
  have ps := (hP.near _ (n - k) ns (by rw [es]; norm_num) es.le (by omega)).1
  subst hw
  cases k with
  | zero =>
    have e2 := hP.one _ (n - 0) ns es
    rw [if_pos rfl]
    rw [Nat.choose_zero_right, hP.zero t ht] at *
    obtain ⟨a1, a2⟩ := toR_one_mul nb n1 (by rw [eb]; norm_num) (by rw [e1, abs_one]; exact B)
    rw [e1] at a2
    obtain ⟨a3, a4⟩ := toR_one_mul a1 ps a2 (by rw [e2, abs_one]; exact B)
    exact ⟨a3, a4.trans e2⟩
  | succ k =>
    rw [if_neg (by omega)]
    obtain ⟨a1, a2⟩ := toR_mul_null nb pt (Or.inr (hP.null t k ht h0))
    exact toR_mul_null a1 ps (Or.inl a2)

theorem loop_first {P : Powi F64} (hP : GoodPowi P) {t : F64} (ht : F64.Num t) (h0 : toR t = 0) {n : Nat} (hn : n ≤ 20)
    (path : List (Point2D F64)) (c : Nat → Point2D F64)
    (hc : ∀ i < path.length, path[i]? = some (c i) ∧ ∀ d, F64.Num (at2 (c i) d)) :
    ∀ (is : List Nat) (x y : F64) (x' y' : F64), (∀ i ∈ is, i ≠ 0 ∧ i ≤ n ∧ i < path.length) → F64.Num x → F64.Num y →
      |toR x| ≤ 2 ^ (1023 : ℤ) → |toR y| ≤ 2 ^ (1023 : ℤ) →
      controlLoop path n t is (x, y) = some (x', y') → toR x' = toR x ∧ toR y' = toR y := by
  intro is
  induction is with
  | nil =>
    intro x y x' y' _ _ _ _ _ h
    simp only [controlLoop, Option.some.injEq, Prod.mk.injEq] at h
    rw [h.1, h.2]; exact ⟨rfl, rfl⟩
  | cons i is ih =>
    intro x y x' y' hi nx ny bx by' h
    obtain ⟨i0, i1, i2⟩ := hi i (by simp)
    obtain ⟨w, hw, -⟩ := weight_appr hP ht h0.ge (by rw [h0]; norm_num) hn i1
    obtain ⟨nw, ew⟩ := weight_first hP ht h0 hn i1 hw
    rw [if_neg i0] at ew
    obtain ⟨hp, hq⟩ := hc i i2
    have hx2 := hq 0
    have hy2 := hq 1
    rw [at2_zero] at hx2
    rw [at2_one] at hy2
    simp only [controlLoop, hw, hp, Option.bind_eq_bind, Option.bind_some] at h
    obtain ⟨a1, a2⟩ := toR_mul_null nw hx2 (Or.inl ew)
    obtain ⟨b1, b2⟩ := toR_mul_null nw hy2 (Or.inl ew)
    obtain ⟨a3, a4⟩ := toR_add_null nx a1 a2 bx
    obtain ⟨b3, b4⟩ := toR_add_null ny b1 b2 by'
    obtain ⟨r1, r2⟩ := ih _ _ _ _ (fun j hj => hi j (List.mem_cons_of_mem _ hj)) a3 b3 (by rwa [a4]) (by rwa [b4]) h
    exact ⟨r1.trans a4, r2.trans b4⟩

theorem bez_sum (n : Nat) (f : Nat → ℝ) : ((List.range (n + 1)).map f).sum = ∑ k ∈ Finset.range (n + 1), f k := sum_range_list f (n + 1)

/-- one point of the curve -/
theorem control_near {P : Powi F64} (hP : GoodPowi P) {t : F64} (ht : F64.Num t) (h0 : 0 ≤ toR t) (h1 : toR t ≤ 1)
    (path : List (Point2D F64)) (c : Nat → Point2D F64) {m : Nat} (hm : path.length = m + 1) (hm' : m ≤ 20) {M : ℝ} (hM1 : 2 ^ (-100 : ℤ) ≤ M) (hM2 : M ≤ 2 ^ (500 : ℤ))
    (hc : ∀ i < path.length, path[i]? = some (c i) ∧ ∀ d, F64.Num (at2 (c i) d) ∧ |toR (at2 (c i) d)| ≤ M) :
    ∃ r, controlPolygon path m t = some r ∧ (∀ d, F64.Num (at2 r d) ∧
      |toR (at2 r d) - ∑ k ∈ Finset.range (m + 1), bernstein m k (toR t) * toR (at2 (c k) d)| ≤ 2 ^ (-44 : ℤ) * M) ∧
      (toR t = 0 → ∀ d, toR (at2 r d) = toR (at2 (c 0) d)) := by
  have M0 : 0 < M := (zpow_pos two_pos _).trans_le hM1
  have T0 : (0:ℝ) < 2 ^ (-900 : ℤ) := zpow_pos two_pos _
  have T9 : (2:ℝ) ^ (-900 : ℤ) ≤ 2 ^ (-200 : ℤ) := zpow_le_zpow_right₀ one_le_two (by norm_num)
  have T' : (2:ℝ) ^ (-200 : ℤ) = 1 / 2 ^ 200 := by rw [zpow_neg]; norm_num
  rw [T'] at T9
  have hl : (List.range (m + 1)).length = m + 1 := List.length_range
  have hm2 : (m:ℝ) ≤ 20 := by exact_mod_cast hm'
  have p4 : (4:ℝ) ^ (m + 1) ≤ 4 ^ 21 := pow_le_pow_right₀ (by norm_num) (by omega)
  have hz : Appr (zero : F64) 0 (M * 0) 183 (0 * M) := by
    refine ⟨lit_zero_num.1, by simp, by simp, ?_⟩
    rw [show (zero : F64) = lit 0 from rfl, lit_zero_num.2]; simp
  have hall : ∀ i ∈ List.range (m + 1), i ≤ m ∧ i < path.length := by
    intro i hi
    have := List.mem_range.1 hi
    omega
  have E : 4 ^ (m + 1) * (0 + (2:ℝ) ^ (-900 : ℤ)) ≤ 1 / 2 ^ 100 := by
    rw [zero_add]
    calc (4:ℝ) ^ (m + 1) * 2 ^ (-900 : ℤ) ≤ 4 ^ 21 * (1 / 2 ^ 200) := mul_le_mul p4 T9 T0.le (by positivity)
      _ ≤ _ := by norm_num
  obtain ⟨x, y, hr, ax, ay⟩ := loop_appr hP ht h0 h1 hm' path c hM1 hM2 hc (List.range (m + 1)) zero zero 0 0 0 0 183 hall hz hz le_rfl
    (by rw [hl]; omega) (by rw [hl]; push_cast; linarith) le_rfl (by rw [hl]; exact E.trans (by norm_num))
  have hrun : controlPolygon path m t = some ⟨x, y⟩ := by
    simp only [controlPolygon, hr, Option.bind_eq_bind, Option.bind_some]
  have key : ∀ {z : F64} {X : ℝ}, Appr z X (M * (0 + ((List.range (m + 1)).map fun i => bernstein m i (toR t)).sum)) (183 + (List.range (m + 1)).length)
      (4 ^ (List.range (m + 1)).length * (0 + 2 ^ (-900 : ℤ)) * M) → |toR z - X| ≤ 2 ^ (-44 : ℤ) * M := by
    intro z X a
    refine a.err.trans ?_
    rw [hl, bez_sum, bernstein_sum]
    have hk := pow_uu_le (k := 183 + (m + 1)) (by rw [uu_53]; push_cast; linarith)
    have h5 : (1 + uu) ^ (183 + (m + 1)) - 1 ≤ 408 / 2 ^ 53 := by
      rw [uu_53] at hk ⊢
      push_cast at hk
      linarith
    have h6 := mul_le_mul_of_nonneg_right h5 M0.le
    have h7 := mul_le_mul_of_nonneg_right E M0.le
    rw [show (2:ℝ) ^ (-44 : ℤ) = 1 / 2 ^ 44 by rw [zpow_neg]; norm_num]
    have h8 : (408:ℝ) / 2 ^ 53 * M + 1 / 2 ^ 100 * M ≤ 1 / 2 ^ 44 * M := by
      rw [← add_mul]; exact mul_le_mul_of_nonneg_right (by norm_num) M0.le
    linarith
  refine ⟨⟨x, y⟩, hrun, ?_, ?_⟩
  · have kx := key ax
    have ky := key ay
    rw [zero_add, bez_sum] at kx ky
    rw [Fin.forall_fin_two]
    exact ⟨⟨ax.num, kx⟩, ⟨ay.num, ky⟩⟩
  · intro h00
    have B : (2:ℝ) ^ (500 : ℤ) ≤ 2 ^ (1023 : ℤ) := zpow_le_zpow_right₀ one_le_two (by norm_num)
    rw [List.range_succ_eq_map] at hr
    obtain ⟨w, hw, -⟩ := weight_appr hP ht h0 h1 hm' (Nat.zero_le m)
    obtain ⟨nw, ew⟩ := weight_first hP ht h00 hm' (Nat.zero_le m) hw
    rw [if_pos rfl] at ew
    obtain ⟨hp, hq⟩ := hc 0 (by omega)
    have hx2 := hq 0
    have hy2 := hq 1
    rw [at2_zero] at hx2
    rw [at2_one] at hy2
    simp only [controlLoop, hw, hp, Option.bind_eq_bind, Option.bind_some] at hr
    have bx := (hx2.2.trans hM2).trans B
    have by' := (hy2.2.trans hM2).trans B
    obtain ⟨a1, a2⟩ := toR_one_mul nw hx2.1 ew bx
    obtain ⟨b1, b2⟩ := toR_one_mul nw hy2.1 ew by'
    obtain ⟨a3, a4⟩ := toR_null_add lit_zero_num.1 a1 lit_zero_num.2 (by rwa [a2])
    obtain ⟨b3, b4⟩ := toR_null_add lit_zero_num.1 b1 lit_zero_num.2 (by rwa [b2])
    obtain ⟨r1, r2⟩ := loop_first hP ht h00 hm' path c (fun i hi => ⟨(hc i hi).1, fun d => ((hc i hi).2 d).1⟩) _ _ _ _ _ (by
      intro i hi
      obtain ⟨j, hj, rfl⟩ := List.mem_map.1 hi
      have := List.mem_range.1 hj
      omega) a3 b3 (by rw [a4, a2]; exact bx) (by rw [b4, b2]; exact by') hr
    rw [Fin.forall_fin_two]
    exact ⟨r1.trans (a4.trans a2), r2.trans (b4.trans b2)⟩

/-- **C107** (beside C45) `interpolate_bezier` on doubles, for a `powi` of the stated accuracy. With 2 to 21 finite
control points of coordinates up to `M` it returns `n_points` finite points; the first has exactly the coordinates of
the first control point; point `i` lies, up to `2^-44 M` per coordinate, on the Bezier curve at a parameter which is
within `2^-51` of `i / n_points`. -/
theorem c107_bezier {P : Powi F64} (hP : GoodPowi P) (base : List (Point2D F64)) (h2 : 2 ≤ base.length) (h21 : base.length ≤ 21)
    (nPoints : Nat) (hn : nPoints ≤ 2 ^ 50) {M : ℝ} (hM1 : 2 ^ (-100 : ℤ) ≤ M) (hM2 : M ≤ 2 ^ (500 : ℤ))
    (hb : ∀ p ∈ base, ∀ d, F64.Num (at2 p d) ∧ |toR (at2 p d)| ≤ M) :
    ∃ pts, interpolateBezier base nPoints = some (.ok pts) ∧ pts.length = nPoints ∧
      (∀ p q, pts.head? = some p → base.head? = some q → ∀ d, toR (at2 p d) = toR (at2 q d)) ∧
      ∀ (i : Nat) p, pts[i]? = some p → ∃ t : ℝ, 0 ≤ t ∧ t ≤ 1 ∧ |t - i / nPoints| ≤ 2 ^ (-51 : ℤ) ∧ ∀ d,
        F64.Num (at2 p d) ∧
        |toR (at2 p d) - ∑ k : Fin base.length, bernstein (base.length - 1) k t * toR (at2 base[k] d)| ≤ 2 ^ (-44 : ℤ) * M := by
  obtain ⟨m, hm⟩ : ∃ m, base.length = m + 1 := ⟨base.length - 1, by omega⟩
  let c : Nat → Point2D F64 := fun i => base[i]?.getD ⟨zero, zero⟩
  have hc : ∀ i < base.length, base[i]? = some (c i) ∧ ∀ d, F64.Num (at2 (c i) d) ∧ |toR (at2 (c i) d)| ≤ M := by
    intro i hi
    have e : c i = base[i] := by simp [c, List.getElem?_eq_getElem hi]
    refine ⟨by rw [e, List.getElem?_eq_getElem hi], fun d => ?_⟩
    rw [e]
    exact hb _ (List.getElem_mem hi) d
  have hpt : ∀ i : Nat, i < nPoints → ∃ r, controlPolygon base m ((lit (i : ℚ) : F64) * (lit 1 / lit (nPoints : ℚ))) = some r ∧
      (∃ t : ℝ, 0 ≤ t ∧ t ≤ 1 ∧ |t - i / nPoints| ≤ 2 ^ (-51 : ℤ) ∧ ∀ d, F64.Num (at2 r d) ∧
        |toR (at2 r d) - ∑ k ∈ Finset.range (m + 1), bernstein m k t * toR (at2 (c k) d)| ≤ 2 ^ (-44 : ℤ) * M) ∧
      (i = 0 → ∀ d, toR (at2 r d) = toR (at2 (c 0) d)) := by
    intro i hi
    obtain ⟨nt, t0, t1, te, tz⟩ := bez_param hi hn
    obtain ⟨r, r1, r2, r3⟩ := control_near hP nt t0 t1 base c hm (by omega) hM1 hM2 hc
    exact ⟨r, r1, ⟨_, t0, t1, te, r2⟩, fun h => r3 (tz h)⟩
  let R : Nat → Point2D F64 := fun i => if h : i < nPoints then (hpt i h).choose else ⟨zero, zero⟩
  have hR : ∀ i (h : i < nPoints), R i = (hpt i h).choose := fun i h => by simp only [R, dif_pos h]
  have hrun : interpolateBezier base nPoints = some (.ok ((List.range nPoints).map R)) := by
    have hlt : ¬ base.length < 2 := by omega
    simp only [interpolateBezier, if_neg hlt]
    rw [mapM_all_some _ R _ fun i hi => by
      have hi' := List.mem_range.1 hi
      rw [hR i hi', hm, Nat.add_sub_cancel]
      exact (hpt i hi').choose_spec.1]
    rfl
  have get : ∀ {i : Nat} {p}, ((List.range nPoints).map R)[i]? = some p → ∃ h : i < nPoints, p = (hpt i h).choose := by
    intro i p hp
    have hi : i < nPoints := by
      have := (List.getElem?_eq_some_iff.1 hp).1
      simpa using this
    refine ⟨hi, ?_⟩
    rw [← hR i hi]
    have : R i = p := by simpa [List.getElem?_eq_getElem, hi] using hp
    exact this.symm
  refine ⟨_, hrun, by simp, ?_, ?_⟩
  · intro p q hp hq d
    rw [List.head?_eq_getElem?] at hp hq
    obtain ⟨h, rfl⟩ := get hp
    rw [(hpt 0 h).choose_spec.2.2 rfl d]
    have := (hc 0 (by omega)).1
    rw [hq] at this
    rw [Option.some.inj this]
  · intro i p hp
    obtain ⟨h, rfl⟩ := get hp
    have sp := (hpt i h).choose_spec.2.1
    generalize (hpt i h).choose = r at sp ⊢
    obtain ⟨t, t0, t1, te, ht⟩ := sp
    refine ⟨t, t0, t1, te, fun d => ⟨(ht d).1, ?_⟩⟩
    have := (ht d).2
    rw [← hm, Finset.sum_range] at this
    have hm1 : base.length - 1 = m := by omega
    rw [hm1]
    convert this using 5 with k
    simp [c]

/-- **C107** every half plane which contains the control points contains the computed points, up to `2^-44 M` per
coordinate. -/
theorem c107_hull {P : Powi F64} (hP : GoodPowi P) (base : List (Point2D F64)) (h2 : 2 ≤ base.length) (h21 : base.length ≤ 21)
    (nPoints : Nat) (hn : nPoints ≤ 2 ^ 50) {M : ℝ} (hM1 : 2 ^ (-100 : ℤ) ≤ M) (hM2 : M ≤ 2 ^ (500 : ℤ))
    (hb : ∀ p ∈ base, ∀ d, F64.Num (at2 p d) ∧ |toR (at2 p d)| ≤ M) {pts : List (Point2D F64)}
    (hrun : interpolateBezier base nPoints = some (.ok pts)) (u v s : ℝ) (hs : ∀ p ∈ base, u * toR p.x + v * toR p.y ≤ s) :
    ∀ p ∈ pts, u * toR p.x + v * toR p.y ≤ s + (|u| + |v|) * (2 ^ (-44 : ℤ) * M) := by
  obtain ⟨pts', h1, -, -, h⟩ := c107_bezier hP base h2 h21 nPoints hn hM1 hM2 hb
  rw [hrun, Option.some.injEq, Except.ok.injEq] at h1
  subst h1
  intro p hp
  obtain ⟨i, hi, rfl⟩ := List.mem_iff_getElem.1 hp
  obtain ⟨t, t0, t1, -, ht⟩ := h i _ (List.getElem?_eq_getElem hi)
  have hx := (ht 0).2
  have hy := (ht 1).2
  simp only [at2_zero, at2_one] at hx hy
  have hsum : ∑ k : Fin base.length, bernstein (base.length - 1) k t = 1 := by
    have := bernstein_sum (base.length - 1) t
    rwa [show base.length - 1 + 1 = base.length by omega, Finset.sum_range] at this
  have hle : u * (∑ k : Fin base.length, bernstein (base.length - 1) k t * toR base[k].x) +
      v * (∑ k : Fin base.length, bernstein (base.length - 1) k t * toR base[k].y) ≤ s := by
    rw [Finset.mul_sum, Finset.mul_sum, ← Finset.sum_add_distrib]
    calc _ ≤ ∑ k : Fin base.length, bernstein (base.length - 1) k t * s := Finset.sum_le_sum fun k _ => by
          have := mul_le_mul_of_nonneg_left (hs base[k] (List.getElem_mem k.2)) (bernstein_nonneg t0 t1 (n := base.length - 1) (k := k))
          linarith
      _ = s := by rw [← Finset.sum_mul, hsum, one_mul]
  generalize (∑ k : Fin base.length, bernstein (base.length - 1) k t * toR base[k].x) = X at *
  generalize (∑ k : Fin base.length, bernstein (base.length - 1) k t * toR base[k].y) = Y at *
  generalize (2:ℝ) ^ (-44 : ℤ) * M = E at *
  have ex : u * (toR pts[i].x - X) ≤ |u| * E := (le_abs_self _).trans (by rw [_root_.abs_mul]; exact mul_le_mul_of_nonneg_left hx (abs_nonneg u))
  have ey : v * (toR pts[i].y - Y) ≤ |v| * E := (le_abs_self _).trans (by rw [_root_.abs_mul]; exact mul_le_mul_of_nonneg_left hy (abs_nonneg v))
  linarith

/-- repeated multiplication -/
@[reducible] def mulPowi : Powi F64 where
  powi t n := Nat.rec (lit 1) (fun _ r => r * t) n

theorem mulPowi_near {t : F64} (ht : F64.Num t) (h0 : 0 ≤ toR t) (h1 : toR t ≤ 1) : ∀ n ≤ 20,
    Appr (mulPowi.powi t n) (toR t ^ n) (toR t ^ n) n (4 ^ n * 2 ^ (-1075 : ℤ))
  | 0, _ => by
    have := Appr.exact (lit_one_num.1) (show |toR (lit 1 : F64)| ≤ 1 by rw [lit_one_num.2]; simp)
    rw [lit_one_num.2] at this
    refine Appr.mono (k := 0) (e := 0) ?_ le_rfl (by positivity)
    rw [pow_zero]
    exact this
  | n + 1, hn => by
    have ih := mulPowi_near ht h0 h1 n (by omega)
    have x0 : 0 ≤ toR t ^ n := pow_nonneg h0 n
    have x1 : toR t ^ n ≤ 1 := pow_le_one₀ h0 h1
    have Z0 : (0:ℝ) < 2 ^ (-1075 : ℤ) := zpow_pos two_pos _
    have Z1 : (2:ℝ) ^ (-1075 : ℤ) ≤ 2 ^ (-100 : ℤ) := zpow_le_zpow_right₀ one_le_two (by norm_num)
    have Z2 : (2:ℝ) ^ (-100 : ℤ) = 1 / 2 ^ 100 := by rw [zpow_neg]; norm_num
    rw [Z2] at Z1
    have r := pow_uu_two (k := n) (by omega)
    have r' := one_le_pow_uu n
    have p4 : (4:ℝ) ^ n ≤ 4 ^ 20 := pow_le_pow_right₀ (by norm_num) (by omega)
    have p4' : (1:ℝ) ≤ 4 ^ n := one_le_pow₀ (by norm_num)
    have e1 : (4:ℝ) ^ n * 2 ^ (-1075 : ℤ) ≤ 1 := by
      calc (4:ℝ) ^ n * 2 ^ (-1075 : ℤ) ≤ 4 ^ 20 * (1 / 2 ^ 100) := mul_le_mul p4 Z1 Z0.le (by positivity)
        _ ≤ 1 := by norm_num
    have B : (3:ℝ) ≤ 2 ^ (1023 : ℤ) := by
      calc (3:ℝ) ≤ 2 ^ (2 : ℤ) := by norm_num
        _ ≤ _ := zpow_le_zpow_right₀ one_le_two (by norm_num)
    have e0 : 0 ≤ (4:ℝ) ^ n * 2 ^ (-1075 : ℤ) := by positivity
    have := ih.mul (Appr.exact ht (le_of_eq (abs_of_nonneg h0))) (by
      refine le_trans ?_ B
      rw [pow_zero, one_mul, add_zero]
      have h5 : (1 + uu) ^ n * toR t ^ n ≤ 2 * 1 := mul_le_mul r x1 x0 (by norm_num)
      calc ((1 + uu) ^ n * toR t ^ n + 4 ^ n * 2 ^ (-1075 : ℤ)) * toR t ≤ 3 * 1 := mul_le_mul (by linarith) h1 h0 (by norm_num)
        _ = 3 := by norm_num)
    rw [← pow_succ] at this
    refine this.mono (by omega) ?_
    rw [pow_zero, one_mul, mul_zero, mul_zero, zero_add, add_zero, pow_succ]
    have h6 := mul_le_mul_of_nonneg_left h1 e0
    have h7 := mul_le_mul_of_nonneg_right p4' Z0.le
    generalize (2:ℝ) ^ (-1075 : ℤ) = Z at *
    linarith

theorem goodPowi_mul : GoodPowi mulPowi := by
  refine ⟨fun _ _ => rfl, ?_, ?_, ?_⟩
  · intro t n ht h0
    have : ∀ n, F64.Num (mulPowi.powi t n) := by
      intro n
      induction n with
      | zero => exact lit_one_num.1
      | succ n ih => exact (toR_mul_null ih ht (Or.inr h0)).1
    exact (toR_mul_null (this n) ht (Or.inr h0)).2
  · intro t n ht h1
    have : ∀ n, F64.Num (mulPowi.powi t n) ∧ toR (mulPowi.powi t n) = 1 := by
      intro n
      induction n with
      | zero => exact lit_one_num
      | succ n ih =>
        obtain ⟨a, b⟩ := toR_one_mul ih.1 ht ih.2 (by rw [h1, abs_one]; exact one_le_zpow₀ one_le_two (by norm_num))
        exact ⟨a, b.trans h1⟩
    exact (this n).2
  · intro t n ht h0 h1 hn
    have a := mulPowi_near ht h0 h1 n hn
    refine ⟨a.num, a.err.trans ?_⟩
    have hn' : (n:ℝ) ≤ 20 := by exact_mod_cast hn
    have hk := pow_uu_le (k := n) (by rw [uu_53]; linarith)
    have x0 : 0 ≤ toR t ^ n := pow_nonneg h0 n
    refine add_le_add (mul_le_mul_of_nonneg_right ?_ x0) ?_
    · rw [uu_47]
      have : 2 * (n:ℝ) * uu ≤ 64 * uu := mul_le_mul_of_nonneg_right (by linarith) uu_pos.le
      linarith
    · calc (4:ℝ) ^ n * 2 ^ (-1075 : ℤ) ≤ 2 ^ (40 : ℤ) * 2 ^ (-1075 : ℤ) := by
            refine mul_le_mul_of_nonneg_right ?_ (zpow_pos two_pos _).le
            calc (4:ℝ) ^ n ≤ 4 ^ 20 := pow_le_pow_right₀ (by norm_num) hn
              _ = _ := by norm_num
        _ = 2 ^ (-1035 : ℤ) := by rw [← zpow_add₀ two_ne_zero]; norm_num
        _ ≤ _ := zpow_le_zpow_right₀ one_le_two (by norm_num)

/-- two equal control points -/
def bezFlat : List (Point2D F64) := [⟨f (1/10), f 0⟩, ⟨f (1/10), f 0⟩]

/-- **C107 violated** in the strict sense: both control points are (0.1, 0), but point 1 of 5 has another x (`powi` as
repeated multiplication), it is not between the control points. -/
theorem c107_violated_rounding : (((@interpolateBezier F64 _ mulPowi bezFlat 5).bind Except.toOption).bind (·[1]?)).map
    (fun p => (decide (∀ q ∈ bezFlat, (q.x <. p.x) = true))) = some true := by
  decide +kernel

/-- repeated multiplication meets the demands on `powi` -/
example : GoodPowi mulPowi := goodPowi_mul

/-- a control polygon with four points -/
def bezEx : List (Point2D F64) := [⟨f 0, f 0⟩, ⟨f 1, f 3⟩, ⟨f 2, f (-1)⟩, ⟨f 4, f 0⟩]

example : 2 ≤ bezEx.length ∧ bezEx.length ≤ 21 ∧ (2:ℝ) ^ (-100 : ℤ) ≤ 4 ∧ (4:ℝ) ≤ 2 ^ (500 : ℤ) ∧
    ∀ p ∈ bezEx, ∀ d, F64.Num (at2 p d) ∧ |toR (at2 p d)| ≤ 4 := by
  refine ⟨by decide, by decide, ?_, ?_, ?_⟩
  · exact (zpow_le_one_of_nonpos₀ one_le_two (by norm_num)).trans (by norm_num)
  · calc (4:ℝ) = 2 ^ (2 : ℤ) := by norm_num
      _ ≤ _ := zpow_le_zpow_right₀ one_le_two (by norm_num)
  · have e0 := ex_num 0 false 0 (by decide +kernel)
    have e1 := ex_num 1 false 1 (by decide +kernel)
    have e2 := ex_num 2 false 2 (by decide +kernel)
    have e3 := ex_num 3 false 3 (by decide +kernel)
    have e4 := ex_num 4 false 4 (by decide +kernel)
    have e5 := ex_num (-1) true 1 (by decide +kernel)
    simp only [bezEx, List.forall_mem_cons, List.not_mem_nil, false_imp_iff, implies_true, and_true, Fin.forall_fin_two, at2_zero, at2_one]
    rw [e0.2, e1.2, e2.2, e3.2, e4.2, e5.2]
    refine ⟨⟨⟨e0.1, ?_⟩, e0.1, ?_⟩, ⟨⟨e1.1, ?_⟩, e3.1, ?_⟩, ⟨⟨e2.1, ?_⟩, e5.1, ?_⟩, ⟨e4.1, ?_⟩, e0.1, ?_⟩ <;> norm_num [val]

end R3D
