import Verif.Props.CloudGeometry
import Verif.Props.BoxFloat
import Verif.Props.MatrixFloat
import Verif.Lemmas.F64Appr
/-!
C101: moving, scaling, centering and resizing clouds and line segments of doubles, with every rounding.
-/
namespace R3D
open Scalar LawfulScalar Spec F64

namespace F64

theorem key_mul_mono {a b c d : F64} (ha : Num a) (hb : Num b) (hc : Num c) (hd : Num d) (h : toR a * toR b ≤ toR c * toR d) :
    key (a * b) ≤ key (c * d) := by
  obtain ⟨s, m, rfl, r, hm, e1⟩ := ha.form
  obtain ⟨t, n, rfl, r', hn, e2⟩ := hb.form
  obtain ⟨s', m', rfl, q, hm', e3⟩ := hc.form
  obtain ⟨t', n', rfl, q', hn', e4⟩ := hd.form
  show key (F64.mul _ _) ≤ key (F64.mul _ _)
  rw [key_mul r.1 r'.1, key_mul q.1 q'.1]
  rw [e1, e2, e3, e4] at h
  exact rkey_mono (by exact_mod_cast h)

theorem toR_le_of_key {a b : F64} (ha : Num a) (hb : Num b) (h : key a ≤ key b) : toR a ≤ toR b := by
  rw [ha.key, hb.key, EReal.coe_le_coe_iff] at h
  exact h

theorem one_le_big : (1:ℝ) ≤ 2 ^ (1000 : ℤ) := one_le_zpow₀ one_le_two (by norm_num)
theorem eta75_le_one : (2:ℝ) ^ (-1075 : ℤ) ≤ 1 := zpow_le_one_of_nonpos₀ one_le_two (by norm_num)

theorem big_le {x y : ℝ} (h : x ≤ 2 ^ (1000 : ℤ)) (hy : y ≤ 32 * x + 32) : y ≤ 2 ^ (1023 : ℤ) := by
  have e : (2:ℝ) ^ (1023 : ℤ) = 8388608 * 2 ^ (1000 : ℤ) := by
    rw [show (1023 : ℤ) = 23 + 1000 by norm_num, zpow_add₀ two_ne_zero]; norm_num
  rw [e]
  clear e
  have := one_le_big
  generalize (2:ℝ) ^ (1000 : ℤ) = b at *
  linarith

theorem pow_uu3 : (1 + uu) ^ 3 ≤ 1 + 6 * uu := by
  have := pow_uu_le (k := 3) (by unfold uu; rw [u_small]; norm_num)
  norm_num at this
  linarith

theorem pow_uu_le_two {k : ℕ} (h : k ≤ 3) : (1 + uu) ^ k ≤ 2 :=
  (pow_uu_mono h).trans (pow_uu3.trans (by unfold uu; rw [u_small]; norm_num))

/-- `c + f * (p - c)` -/
theorem scale_coord {c p g : F64} {M : ℝ} (hc : Num c) (hp : Num p) (hg : Num g) (hcM : |toR c| ≤ M) (hpM : |toR p| ≤ M)
    (hg0 : 0 ≤ toR g) (hb : (1 + toR g) * M ≤ 2 ^ (1000 : ℤ)) :
    Num (p - c) ∧ Num (g * (p - c)) ∧ Num (c + g * (p - c)) ∧
      |toR (c + g * (p - c)) - (toR c + toR g * (toR p - toR c))| ≤ 12 * uu * ((1 + toR g) * M) + 2 ^ (-1074 : ℤ) := by
  have hM0 : 0 ≤ M := (abs_nonneg _).trans hcM
  have hgM : 0 ≤ toR g * M := mul_nonneg hg0 hM0
  have hM : M ≤ (1 + toR g) * M := by linarith
  have hu := uu_pos
  have hu4 := uu_le
  have he := eta75_le_one
  have he0 : (0:ℝ) < 2 ^ (-1075 : ℤ) := zpow_pos two_pos _
  have p2 := pow_uu_le_two (k := 2) (by norm_num)
  have a1 := (Appr.exact hp hpM).sub (Appr.exact hc hcM) (big_le hb (by simp only [pow_zero]; linarith))
  have a2 := (Appr.exact hg (A := toR g) (by rw [abs_of_nonneg hg0])).mul a1 (big_le hb (by
    simp only [pow_zero, pow_one, zero_add]
    nlinarith))
  have a3 := (((Appr.exact hc hcM).mono (l := 2) (by norm_num) le_rfl).add (a2.mono (l := 2) (by norm_num) le_rfl)
    (big_le hb (by
      simp only [pow_zero]
      have : (1 + uu) ^ 2 * (M + toR g * (M + M)) ≤ 2 * (M + toR g * (M + M)) :=
        mul_le_mul_of_nonneg_right p2 (by linarith)
      linarith)))
  refine ⟨a1.num, a2.num, a3.num, a3.err.trans ?_⟩
  have p3 := pow_uu3
  have : ((1 + uu) ^ (2 + 1) - 1) * (M + toR g * (M + M)) ≤ 6 * uu * (M + toR g * (M + M)) :=
    mul_le_mul_of_nonneg_right (by norm_num; linarith) (by linarith)
  have e1 := eta_half
  simp only [pow_zero]
  have h4 : 6 * uu * (M + toR g * (M + M)) ≤ 12 * uu * ((1 + toR g) * M) := by nlinarith
  linarith

/-- order is kept exactly -/
theorem scale_mono {c p q g : F64} {M : ℝ} (hc : Num c) (hp : Num p) (hq : Num q) (hg : Num g) (hcM : |toR c| ≤ M) (hpM : |toR p| ≤ M)
    (hqM : |toR q| ≤ M) (hg0 : 0 ≤ toR g) (hb : (1 + toR g) * M ≤ 2 ^ (1000 : ℤ)) (h : toR p ≤ toR q) :
    toR (c + g * (p - c)) ≤ toR (c + g * (q - c)) := by
  obtain ⟨h1, h3, h5, -⟩ := scale_coord hc hp hg hcM hpM hg0 hb
  obtain ⟨h2, h4, h6, -⟩ := scale_coord hc hq hg hcM hqM hg0 hb
  have a := toR_le_of_key h1 h2 (key_sub_mono hp hc hq hc (by linarith))
  have b := toR_le_of_key h3 h4 (key_mul_mono hg h1 hg h2 (mul_le_mul_of_nonneg_left a hg0))
  exact toR_le_of_key h5 h6 (key_add_le_add hc h3 hc h4 (by linarith))

/-- scaling about the computed middle is close to scaling about the middle -/
theorem scale_mid {c p g : F64} {M m : ℝ} (hc : Num c) (hp : Num p) (hg : Num g) (hcM : |toR c| ≤ M) (hpM : |toR p| ≤ M)
    (hg0 : 0 ≤ toR g) (hb : (1 + toR g) * M ≤ 2 ^ (1000 : ℤ)) (hm : |toR c - m| ≤ 2 * uu * M + 2 ^ (-1075 : ℤ)) :
    Num (c + g * (p - c)) ∧
      |toR (c + g * (p - c)) - (m + toR g * (toR p - m))| ≤ (1 + toR g) * (2 ^ (-49 : ℤ) * M + 2 ^ (-1073 : ℤ)) := by
  obtain ⟨-, -, n, e⟩ := scale_coord hc hp hg hcM hpM hg0 hb
  refine ⟨n, ?_⟩
  have hM0 : 0 ≤ M := (abs_nonneg _).trans hcM
  have h1 : toR c + toR g * (toR p - toR c) - (m + toR g * (toR p - m)) = (1 - toR g) * (toR c - m) := by ring
  have h2 : |(1 - toR g) * (toR c - m)| ≤ (1 + toR g) * (2 * uu * M + 2 ^ (-1075 : ℤ)) := by
    rw [abs_mul]
    refine mul_le_mul ?_ hm (abs_nonneg _) (by linarith)
    rw [abs_le]; constructor <;> linarith
  have h3 := abs_add_le (toR (c + g * (p - c)) - (toR c + toR g * (toR p - toR c))) ((1 - toR g) * (toR c - m))
  rw [← h1, sub_add_sub_cancel, h1] at h3
  refine h3.trans ?_
  have u1 : 16 * uu = 2 ^ (-49 : ℤ) := by unfold uu; norm_num
  have w1 : (2:ℝ) ^ (-1073 : ℤ) = 4 * 2 ^ (-1075 : ℤ) := by
    rw [show (-1073 : ℤ) = 2 + -1075 by norm_num, zpow_add₀ two_ne_zero]; norm_num
  have w2 : (2:ℝ) ^ (-1074 : ℤ) = 2 * 2 ^ (-1075 : ℤ) := by
    rw [show (-1074 : ℤ) = 1 + -1075 by norm_num, zpow_add₀ two_ne_zero]; norm_num
  have w0 : (0:ℝ) < 2 ^ (-1075 : ℤ) := zpow_pos two_pos _
  have hu := uu_pos
  rw [← u1, w1]
  rw [w2] at e
  generalize (2:ℝ) ^ (-1075 : ℤ) = w at *
  have : 0 ≤ (1 + toR g) * (uu * M) := by positivity
  have : 0 ≤ toR g * w := by positivity
  nlinarith only [e, h2, this, w0, hu, hM0, hg0, mul_nonneg hu.le hM0, mul_nonneg hg0 (mul_nonneg hu.le hM0)]

/-- the computed middle -/
theorem mid_err {l h c : F64} {M : ℝ} (hc : IsCenter l h c) (hl : |toR l| ≤ M) (hh : |toR h| ≤ M) :
    Num c ∧ |toR c| ≤ M ∧ |toR c - (toR l + toR h) / 2| ≤ 2 * uu * M + 2 ^ (-1075 : ℤ) := by
  obtain ⟨n, h1, h2, h3⟩ := hc
  have hM0 : 0 ≤ M := (abs_nonneg _).trans hl
  have l' := abs_le.1 hl
  have h' := abs_le.1 hh
  refine ⟨n, by rw [abs_le]; constructor <;> linarith, h3.trans ?_⟩
  have a : 2 ^ (-53 : ℤ) * (toR h - toR l) ≤ 2 ^ (-53 : ℤ) * (2 * M) := mul_le_mul_of_nonneg_left (by linarith) u_pos.le
  have b : 2 ^ (-53 : ℤ) * max |toR l| |toR h| ≤ 2 ^ (-53 : ℤ) * M := mul_le_mul_of_nonneg_left (max_le hl hh) u_pos.le
  unfold uu
  generalize (2:ℝ) ^ (-53 : ℤ) = u at *
  generalize (2:ℝ) ^ (-1075 : ℤ) = w at *
  linarith

/-- one rounded shift -/
theorem shift_coord {p t : F64} {M : ℝ} (hp : Num p) (ht : Num t) (hpM : |toR p| ≤ M) (hb : M + |toR t| ≤ 2 ^ (1000 : ℤ)) :
    Num (p + t) ∧ |toR (p + t) - (toR p + toR t)| ≤ 2 ^ (-53 : ℤ) * (M + |toR t|) := by
  have h0 : 0 ≤ M := (abs_nonneg _).trans hpM
  have h1 : |toR p + toR t| ≤ M + |toR t| := (abs_add_le _ _).trans (by linarith)
  obtain ⟨n, e⟩ := toR_add hp ht (big_le hb (by linarith [abs_nonneg (toR t)]))
  exact ⟨n, e.trans (mul_le_mul_of_nonneg_left h1 u_pos.le)⟩

theorem shift_mono {p q t : F64} {M : ℝ} (hp : Num p) (hq : Num q) (ht : Num t) (hpM : |toR p| ≤ M) (hqM : |toR q| ≤ M)
    (hb : M + |toR t| ≤ 2 ^ (1000 : ℤ)) (h : toR p ≤ toR q) : toR (p + t) ≤ toR (q + t) :=
  toR_le_of_key (shift_coord hp ht hpM hb).1 (shift_coord hq ht hqM hb).1 (key_add_le_add hp ht hq ht (by linarith))

/-- the factor `s / b` for the computed width `b` of the exact width `w` -/
theorem factor_err {s b : F64} {w : ℝ} (hs : Num s) (hb : Num b) (hs0 : 0 < toR s) (hw : 0 < w) (h : |toR b - w| ≤ 2 ^ (-53 : ℤ) * w)
    (hS : toR s / w ≤ 2 ^ (1000 : ℤ)) :
    Num (s / b) ∧ 0 ≤ toR (s / b) ∧ |toR (s / b) - toR s / w| ≤ 3 * uu * (toR s / w) + 2 ^ (-1075 : ℤ) := by
  have hu := uu_pos
  have hu4 := uu_le
  have h1 := abs_le.1 (show |toR b - w| ≤ uu * w from h)
  have hS0 : 0 < toR s / w := div_pos hs0 hw
  have b34 : 3 / 4 * w ≤ toR b := by nlinarith
  have b0 : 0 < toR b := by linarith
  have q1 : toR s / toR b ≤ 4 / 3 * (toR s / w) := by
    rw [div_le_iff₀ b0]
    calc toR s = 4 / 3 * (toR s / w) * (3 / 4 * w) := by field_simp
      _ ≤ _ := mul_le_mul_of_nonneg_left b34 (by positivity)
  have q0 : 0 < toR s / toR b := div_pos hs0 b0
  have q2 : |toR s / toR b - toR s / w| ≤ uu * (4 / 3 * (toR s / w)) := by
    have : toR s / toR b - toR s / w = toR s / toR b * ((w - toR b) / w) := by field_simp
    rw [this, abs_mul, abs_of_pos q0, abs_div, abs_of_pos hw, abs_sub_comm, mul_comm]
    refine mul_le_mul ?_ q1 q0.le hu.le
    rw [div_le_iff₀ hw]
    exact h
  obtain ⟨n, e⟩ := toR_div hs hb b0.ne' (by rw [abs_of_pos q0]; exact big_le hS (by linarith))
  have hnn : 0 ≤ toR (s / b) := by
    refine MultR.le_of_lt ⟨0, by simp⟩ n.multR ?_
    have h5 := (abs_le.1 e).1
    rw [abs_of_pos q0, show (2:ℝ) ^ (-53 : ℤ) = uu from rfl] at h5
    have h6 : uu * (toR s / toR b) ≤ 1 / 4 * (toR s / toR b) := mul_le_mul_of_nonneg_right hu4 q0.le
    have e1 := eta_half
    have e2 := eta_pos
    linarith
  refine ⟨n, hnn, ?_⟩
  have h3 := abs_add_le (toR (s / b) - toR s / toR b) (toR s / toR b - toR s / w)
  rw [sub_add_sub_cancel] at h3
  rw [abs_of_pos q0] at e
  have e' : |toR (s / b) - toR s / toR b| ≤ uu * (4 / 3 * (toR s / w)) + 2 ^ (-1075 : ℤ) :=
    e.trans (add_le_add_left (mul_le_mul_of_nonneg_left q1 hu.le) _)
  nlinarith

/-- a coordinate times the computed factor -/
theorem resize_coord {p s b : F64} {w M : ℝ} (hp : Num p) (hs : Num s) (hb : Num b) (hs0 : 0 < toR s) (hw : 0 < w)
    (h : |toR b - w| ≤ 2 ^ (-53 : ℤ) * w) (hpM : |toR p| ≤ M) (hM : M ≤ 2 ^ (1000 : ℤ)) (hS : toR s / w ≤ 2 ^ (1000 : ℤ))
    (hSM : toR s / w * M ≤ 2 ^ (1000 : ℤ)) :
    Num (p * (s / b)) ∧ |toR (p * (s / b)) - toR p * (toR s / w)| ≤ 2 ^ (-50 : ℤ) * (toR s / w * M) + 2 ^ (-1074 : ℤ) * (1 + M) := by
  obtain ⟨n, n0, e⟩ := factor_err hs hb hs0 hw h hS
  have hM0 : 0 ≤ M := (abs_nonneg _).trans hpM
  have hS0 : 0 ≤ toR s / w := (div_pos hs0 hw).le
  have hu := uu_pos
  have hu4 := uu_le
  have e1 := eta_half
  have e2 := eta_pos
  have e3 : (2:ℝ) ^ (-1074 : ℤ) ≤ 1 := eta_le_one
  have u1 : (2:ℝ) ^ (-50 : ℤ) = 8 * uu := by unfold uu; norm_num
  rw [u1]
  rw [e1] at e
  have hSM0 : 0 ≤ toR s / w * M := mul_nonneg hS0 hM0
  generalize hSd : toR s / w = S at *
  generalize hq : s / b = q at *
  generalize hη : (2:ℝ) ^ (-1074 : ℤ) = η at *
  have hq1 : toR q ≤ 7 / 4 * S + η / 2 := by
    have := (abs_le.1 e).2
    nlinarith
  have hpq : |toR p * toR q| ≤ 7 / 4 * (S * M) + η / 2 * M := by
    rw [abs_mul, abs_of_nonneg n0]
    calc |toR p| * toR q ≤ M * (7 / 4 * S + η / 2) := mul_le_mul hpM hq1 n0 hM0
      _ = _ := by ring
  have hηM : 0 ≤ η * M := mul_nonneg e2.le hM0
  have hηM1 : η * M ≤ M := by nlinarith
  have hbig : |toR p * toR q| ≤ 2 ^ (1023 : ℤ) :=
    big_le (x := max (S * M) M) (max_le hSM hM) (by linarith [le_max_left (S * M) M, le_max_right (S * M) M])
  obtain ⟨k, e4⟩ := toR_mul hp n hbig
  refine ⟨k, ?_⟩
  rw [e1] at e4
  have h5 : |toR p * toR q - toR p * S| ≤ M * (3 * uu * S + η / 2) := by
    rw [← mul_sub, abs_mul]
    exact mul_le_mul hpM e (abs_nonneg _) hM0
  have h6 := abs_add_le (toR (p * q) - toR p * toR q) (toR p * toR q - toR p * S)
  rw [sub_add_sub_cancel] at h6
  have h7 : 2 ^ (-53 : ℤ) * |toR p * toR q| ≤ uu * (7 / 4 * (S * M) + η / 2 * M) := mul_le_mul_of_nonneg_left hpq hu.le
  have h8 : uu * (η / 2 * M) ≤ 1 / 4 * (η / 2 * M) := mul_le_mul_of_nonneg_right hu4 (by linarith)
  have h9 : 0 ≤ uu * (S * M) := mul_nonneg hu.le hSM0
  nlinarith

theorem resize_mono {p q t : F64} (hp : Num p) (hq : Num q) (ht : Num t) (h0 : 0 ≤ toR t) (h1 : Num (p * t)) (h2 : Num (q * t))
    (h : toR p ≤ toR q) : toR (p * t) ≤ toR (q * t) :=
  toR_le_of_key h1 h2 (key_mul_mono hp ht hq ht (mul_le_mul_of_nonneg_right h h0))

/-- equal as numbers, one of them finite -/
theorem toR_of_same {a b : F64} (h : SameNum a b) (ha : Rep a) (hb : Num b) : Num a ∧ toR a = toR b := by
  obtain ⟨h1, -, h3⟩ := h
  have k : Num a := num_of_bounded ha h1 (x := toR b) (y := toR b) (by rw [h3, hb.key]) (by rw [h3, hb.key])
  refine ⟨k, ?_⟩
  rw [k.key, hb.key] at h3
  exact EReal.coe_eq_coe_iff.1 h3

end F64

/-! ### specification -/

/-- one coordinate of the points ranges from `lo` to `hi` (both attained; all of them finite numbers) -/
def Spec.Extent {P : Type} (l : List P) (co : P → F64) (lo hi : ℝ) : Prop :=
  (∀ p ∈ l, F64.Num (co p) ∧ lo ≤ toR (co p) ∧ toR (co p) ≤ hi) ∧ (∃ p ∈ l, toR (co p) = lo) ∧ ∃ p ∈ l, toR (co p) = hi

/-- `r` is the list `l` with `F` applied to one coordinate up to an error of `e`, in the same order; coordinates that
are in order stay in order (exactly), and the extent is mapped to the extent -/
structure Spec.NearMap {P : Type} (l r : List P) (co : P → F64) (F : ℝ → ℝ) (e : ℝ) : Prop where
  len : r.length = l.length
  near : ∀ (i : ℕ) p q, l[i]? = some p → r[i]? = some q → F64.Num (co q) ∧ |toR (co q) - F (toR (co p))| ≤ e
  order : ∀ (i j : ℕ) p q p' q', l[i]? = some p → l[j]? = some q → r[i]? = some p' → r[j]? = some q' →
    toR (co p) ≤ toR (co q) → toR (co p') ≤ toR (co q')
  extent : ∀ lo hi, Extent l co lo hi → ∃ lo' hi', Extent r co lo' hi' ∧ |lo' - F lo| ≤ e ∧ |hi' - F hi| ≤ e

theorem Spec.NearMap.of_map {P : Type} {l : List P} {co : P → F64} {F : ℝ → ℝ} {e : ℝ} (g : P → P)
    (hn : ∀ p ∈ l, F64.Num (co (g p)) ∧ |toR (co (g p)) - F (toR (co p))| ≤ e)
    (hm : ∀ p ∈ l, ∀ q ∈ l, toR (co p) ≤ toR (co q) → toR (co (g p)) ≤ toR (co (g q))) : NearMap l (l.map g) co F e := by
  refine ⟨List.length_map _, ?_, ?_, ?_⟩
  · intro i p q hp hq
    rw [List.getElem?_map, hp] at hq
    obtain rfl : g p = q := by simpa using hq
    exact hn p (List.mem_of_getElem? hp)
  · intro i j p q p' q' hp hq hp' hq' hle
    rw [List.getElem?_map, hp] at hp'
    rw [List.getElem?_map, hq] at hq'
    obtain rfl : g p = p' := by simpa using hp'
    obtain rfl : g q = q' := by simpa using hq'
    exact hm p (List.mem_of_getElem? hp) q (List.mem_of_getElem? hq) hle
  · rintro lo hi ⟨h, ⟨p, hp, rfl⟩, q, hq, rfl⟩
    refine ⟨toR (co (g p)), toR (co (g q)), ⟨?_, ⟨g p, List.mem_map_of_mem hp, rfl⟩, g q, List.mem_map_of_mem hq, rfl⟩,
      (hn p hp).2, (hn q hq).2⟩
    intro x hx
    obtain ⟨y, hy, rfl⟩ := List.mem_map.1 hx
    exact ⟨(hn y hy).1, hm p hp y hy (h y hy).2.1, hm y hy q hq (h y hy).2.2⟩

/-! ### 3D -/

/-- the points have finite coordinates up to `M` in size, which are not all the same in any dimension -/
structure Spec.Spread3 (l : List (Point3D F64)) (lo hi : Fin 3 → ℝ) (M : ℝ) : Prop where
  ext : ∀ d, Extent l (fun p => at3 p d) (lo d) (hi d)
  lt : ∀ d, lo d < hi d
  le : ∀ d, |lo d| ≤ M ∧ |hi d| ≤ M

theorem Spec.Extent.abs_le {P : Type} {l : List P} {co : P → F64} {lo hi M : ℝ} (h : Extent l co lo hi) (hlo : |lo| ≤ M) (hhi : |hi| ≤ M)
    {p : P} (hp : p ∈ l) : F64.Num (co p) ∧ |toR (co p)| ≤ M := by
  obtain ⟨n, a, b⟩ := h.1 p hp
  have := _root_.abs_le.1 hlo
  have := _root_.abs_le.1 hhi
  exact ⟨n, by rw [_root_.abs_le]; constructor <;> linarith⟩

theorem two_of_ne {P : Type} {l : List P} {p q : P} (hp : p ∈ l) (hq : q ∈ l) (h : p ≠ q) : 2 ≤ l.length := by
  match l with
  | [] => simp at hp
  | [a] => simp at hp hq; exact absurd (hp.trans hq.symm) h
  | _ :: _ :: _ => simp

theorem spread_box_3d {l : List (Point3D F64)} {lo hi : Fin 3 → ℝ} {M : ℝ} (h : Spread3 l lo hi M) :
    ∃ b, BoundingBox3D.fromIterator l = .ok b ∧ (box3 b).Fin ∧ ∀ d, toR ((box3 b).lo d) = lo d ∧ toR ((box3 b).hi d) = hi d := by
  have hn : ∀ p ∈ l, ∀ d, F64.Num (at3 p d) := fun p hp d => ((h.ext d).1 p hp).1
  have hlen : 2 ≤ l.length := by
    obtain ⟨-, ⟨p, hp, e⟩, q, hq, e'⟩ := h.ext 0
    refine two_of_ne hp hq ?_
    rintro rfl
    have := h.lt 0
    rw [← e, ← e'] at this
    exact lt_irrefl _ this
  obtain ⟨b, hb, hv, hm, ht, -⟩ := (c16_from_iterator_3d l fun p hp d => (hn p hp d).ok).2.2 hlen fun d => by
    obtain ⟨-, ⟨p, hp, e⟩, q, hq, e'⟩ := h.ext d
    refine ⟨p, hp, q, hq, ?_⟩
    show F64.key _ ≠ F64.key _
    rw [(hn p hp d).key, (hn q hq d).key]
    intro hh
    have := h.lt d
    rw [← e, ← e', EReal.coe_eq_coe_iff.1 hh] at this
    exact lt_irrefl _ this
  have hk : ∀ d, toR ((box3 b).lo d) = lo d ∧ toR ((box3 b).hi d) = hi d := by
    intro d
    obtain ⟨a, ⟨p, hp, e⟩, q, hq, e'⟩ := h.ext d
    obtain ⟨⟨p', hp', f1⟩, q', hq', f2⟩ := ht d
    have m1 := (hm p hp d).1
    have m2 := (hm q hq d).2
    rw [f1] at m1 ⊢
    rw [f2] at m2 ⊢
    have n1 := toR_le_of_key (hn p' hp' d) (hn p hp d) m1
    have n2 := toR_le_of_key (hn q hq d) (hn q' hq' d) m2
    exact ⟨le_antisymm (n1.trans e.le) (a p' hp').2.1, le_antisymm (a q' hq').2.2 (e'.ge.trans n2)⟩
  refine ⟨b, hb, fun d => ?_, hk⟩
  obtain ⟨⟨p', hp', f1⟩, q', hq', f2⟩ := ht d
  refine ⟨f1 ▸ hn p' hp' d, f2 ▸ hn q' hq' d, ?_⟩
  rw [(hk d).1, (hk d).2]
  exact h.lt d

theorem spread_center_3d {l : List (Point3D F64)} {lo hi : Fin 3 → ℝ} {M : ℝ} (h : Spread3 l lo hi M) (hM : M ≤ 2 ^ (1000 : ℤ)) :
    ∃ b, BoundingBox3D.fromIterator l = .ok b ∧ (box3 b).Fin ∧ (∀ d, toR ((box3 b).lo d) = lo d ∧ toR ((box3 b).hi d) = hi d) ∧
      ∀ d, F64.Num (at3 b.centerBB d) ∧ |toR (at3 b.centerBB d)| ≤ M ∧
        |toR (at3 b.centerBB d) - (lo d + hi d) / 2| ≤ 2 * uu * M + 2 ^ (-1075 : ℤ) := by
  obtain ⟨b, hb, hf, hk⟩ := spread_box_3d h
  refine ⟨b, hb, hf, hk, fun d => ?_⟩
  have hc := c97_center.2 b hf (fun d => ?_) d
  · have := mid_err (M := M) hc (by rw [(hk d).1]; exact (h.le d).1) (by rw [(hk d).2]; exact (h.le d).2)
    rw [(hk d).1, (hk d).2] at this
    exact this
  · rw [(hk d).1, (hk d).2]
    have h1 := _root_.abs_le.1 (h.le d).1
    have h2 := _root_.abs_le.1 (h.le d).2
    have h0 : 0 ≤ M := (abs_nonneg _).trans (h.le d).1
    exact big_le hM (by linarith)

/-- **C101** (scale): every coordinate is scaled about the middle of the extent up to a relative error of `2^-49`, the
order of the points in every dimension is kept exactly. -/
theorem c101_scale_3d (l : List (Point3D F64)) (f : Positive F64) (lo hi : Fin 3 → ℝ) (M : ℝ) (h : Spread3 l lo hi M)
    (hf : F64.Num f.val) (hf0 : 0 < toR f.val) (hb : (1 + toR f.val) * M ≤ 2 ^ (1000 : ℤ)) (d : Fin 3) :
    NearMap l (PointCloud3D.scale ⟨l⟩ f).data (fun p => at3 p d) (fun x => (lo d + hi d) / 2 + toR f.val * (x - (lo d + hi d) / 2))
      ((1 + toR f.val) * (2 ^ (-49 : ℤ) * M + 2 ^ (-1073 : ℤ))) := by
  have hM0 : 0 ≤ M := (abs_nonneg _).trans (h.le 0).1
  have hM : M ≤ 2 ^ (1000 : ℤ) := le_trans (by nlinarith) hb
  obtain ⟨b, hb', -, -, hc⟩ := spread_center_3d h hM
  have e : (PointCloud3D.scale ⟨l⟩ f).data = l.map (fun p => p.increaseDistanceToBy b.centerBB f) := by
    simp [PointCloud3D.scale, PointCloud3D.boundingBoxMaybe, hb', Except.toOption]
  rw [e]
  obtain ⟨c1, c2, c3⟩ := hc d
  have hat : ∀ p : Point3D F64, at3 (p.increaseDistanceToBy b.centerBB f) d = at3 b.centerBB d + f.val * (at3 p d - at3 b.centerBB d) := by
    intro p; fin_cases d <;> rfl
  refine NearMap.of_map _ (fun p hp => ?_) (fun p hp q hq hle => ?_)
  · rw [hat]
    obtain ⟨n, a⟩ := (h.ext d).abs_le (h.le d).1 (h.le d).2 hp
    exact scale_mid c1 n hf c2 a hf0.le hb c3
  · rw [hat, hat]
    obtain ⟨n, a⟩ := (h.ext d).abs_le (h.le d).1 (h.le d).2 hp
    obtain ⟨n', a'⟩ := (h.ext d).abs_le (h.le d).1 (h.le d).2 hq
    exact scale_mono c1 n n' hf c2 a a' hf0.le hb hle


/-- **C101** (move_by): every coordinate is shifted up to one rounding, the order in every dimension is kept. -/
theorem c101_move_3d (l : List (Point3D F64)) (v : Point3D F64) (lo hi : Fin 3 → ℝ) (M : ℝ)
    (h : ∀ d, Extent l (fun p => at3 p d) (lo d) (hi d)) (hle : ∀ d, |lo d| ≤ M ∧ |hi d| ≤ M) (hv : v.Num)
    (hb : ∀ d, M + |toR (at3 v d)| ≤ 2 ^ (1000 : ℤ)) (d : Fin 3) :
    NearMap l (PointCloud3D.moveBy ⟨l⟩ v.x v.y v.z).data (fun p => at3 p d) (fun x => x + toR (at3 v d))
      (2 ^ (-53 : ℤ) * (M + |toR (at3 v d)|)) := by
  have hat : ∀ p : Point3D F64, at3 (p.moveBy v.x v.y v.z) d = at3 p d + at3 v d := by
    intro p; fin_cases d <;> rfl
  have hvd : F64.Num (at3 v d) := by
    clear hat; revert d; simp only [forall_fin3, at3_zero, at3_one, at3_two]; exact hv
  refine NearMap.of_map _ (fun p hp => ?_) (fun p hp q hq hpq => ?_)
  · rw [hat]
    obtain ⟨n, a⟩ := (h d).abs_le (hle d).1 (hle d).2 hp
    exact shift_coord n hvd a (hb d)
  · rw [hat, hat]
    obtain ⟨n, a⟩ := (h d).abs_le (hle d).1 (hle d).2 hp
    obtain ⟨n', a'⟩ := (h d).abs_le (hle d).1 (hle d).2 hq
    exact shift_mono n n' hvd a a' (hb d) hpq

/-- **C101** (`center`): the cloud is shifted by the middle of its extent. -/
theorem c101_center (l : List (Point3D F64)) (lo hi : Fin 3 → ℝ) (M : ℝ) (h : Spread3 l lo hi M) (hM : M ≤ 2 ^ (999 : ℤ)) (d : Fin 3) :
    NearMap l (PointCloud3D.center ⟨l⟩).data (fun p => at3 p d) (fun x => x - (lo d + hi d) / 2) (2 ^ (-51 : ℤ) * M + 2 ^ (-1075 : ℤ)) := by
  have hM0 : 0 ≤ M := (abs_nonneg _).trans (h.le 0).1
  have hM2 : M + M ≤ 2 ^ (1000 : ℤ) := by
    rw [show (1000 : ℤ) = 999 + 1 by norm_num, zpow_add₀ two_ne_zero, zpow_one]
    generalize (2:ℝ) ^ (999 : ℤ) = b at *
    linarith
  obtain ⟨b, hb', -, -, hc⟩ := spread_center_3d h (le_trans (by linarith only [hM0]) hM2)
  have e : (PointCloud3D.center ⟨l⟩).data = l.map (fun p => p.moveBy (-b.centerBB.x) (-b.centerBB.y) (-b.centerBB.z)) := by
    simp [PointCloud3D.center, PointCloud3D.moveBy, PointCloud3D.boundingBoxMaybe, hb', Except.toOption]
  rw [e]
  obtain ⟨c1, c2, c3⟩ := hc d
  have hat : ∀ p : Point3D F64, at3 (p.moveBy (-b.centerBB.x) (-b.centerBB.y) (-b.centerBB.z)) d = at3 p d + -at3 b.centerBB d := by
    intro p; fin_cases d <;> rfl
  have cn : F64.Num (-at3 b.centerBB d) := c1.neg
  have ce : toR (-at3 b.centerBB d) = -toR (at3 b.centerBB d) := toR_neg c1
  have cb : M + |toR (-at3 b.centerBB d)| ≤ 2 ^ (1000 : ℤ) := by
    rw [ce, abs_neg]
    exact le_trans (by linarith only [c2]) hM2
  refine NearMap.of_map _ (fun p hp => ?_) (fun p hp q hq hle => ?_)
  · rw [hat]
    obtain ⟨n, a⟩ := (h.ext d).abs_le (h.le d).1 (h.le d).2 hp
    obtain ⟨k, e1⟩ := shift_coord n cn a cb
    refine ⟨k, ?_⟩
    rw [ce, abs_neg] at e1
    have u1 : (2:ℝ) ^ (-51 : ℤ) = 4 * uu := by unfold uu; norm_num
    have e2 : |toR (at3 p d + -at3 b.centerBB d) - (toR (at3 p d) + -toR (at3 b.centerBB d))| ≤ uu * (2 * M) :=
      e1.trans (mul_le_mul_of_nonneg_left (by linarith only [c2]) u_pos.le)
    have h1 := abs_sub (toR (at3 p d + -at3 b.centerBB d) - (toR (at3 p d) + -toR (at3 b.centerBB d))) (toR (at3 b.centerBB d) - (lo d + hi d) / 2)
    rw [u1]
    refine le_trans (le_of_eq ?_) (h1.trans ?_)
    · congr 1; ring
    · generalize (2:ℝ) ^ (-1075 : ℤ) = w at *
      linarith
  · rw [hat, hat]
    obtain ⟨n, a⟩ := (h.ext d).abs_le (h.le d).1 (h.le d).2 hp
    obtain ⟨n', a'⟩ := (h.ext d).abs_le (h.le d).1 (h.le d).2 hq
    exact shift_mono n n' cn a a' cb hle

/-- **C101** (`set_size`): never panics, every coordinate is multiplied by the quotient of the requested and the present size. -/
theorem c101_set_size (l : List (Point3D F64)) (s : Point3D F64) (lo hi : Fin 3 → ℝ) (M : ℝ) (h : Spread3 l lo hi M)
    (hs : s.Num) (hs0 : ∀ d, 0 < toR (at3 s d)) (hM : M ≤ 2 ^ (1000 : ℤ)) (hS : ∀ d, toR (at3 s d) / (hi d - lo d) ≤ 2 ^ (1000 : ℤ))
    (hSM : ∀ d, toR (at3 s d) / (hi d - lo d) * M ≤ 2 ^ (1000 : ℤ)) :
    ∃ r, PointCloud3D.setSize ⟨l⟩ ⟨s.x⟩ ⟨s.y⟩ ⟨s.z⟩ = some ⟨r⟩ ∧
      ∀ d, NearMap l r (fun p => at3 p d) (fun x => x * (toR (at3 s d) / (hi d - lo d)))
        (2 ^ (-50 : ℤ) * (toR (at3 s d) / (hi d - lo d) * M) + 2 ^ (-1074 : ℤ) * (1 + M)) := by
  obtain ⟨b, hb', hf, hk⟩ := spread_box_3d h
  obtain ⟨sx, sy, sz, z1, z2, z3, hz⟩ := c97_size.2 b hf
  have hw : ∀ d, F64.Num (at3 (⟨sx, sy, sz⟩ : Point3D F64) d) ∧
      |toR (at3 (⟨sx, sy, sz⟩ : Point3D F64) d) - (hi d - lo d)| ≤ 2 ^ (-53 : ℤ) * (hi d - lo d) := by
    intro d
    have := (hz d).2
    rw [(hk d).1, (hk d).2] at this
    refine this ?_
    have h1 := _root_.abs_le.1 (h.le d).1
    have h2 := _root_.abs_le.1 (h.le d).2
    have h0 : 0 ≤ M := (abs_nonneg _).trans (h.le d).1
    exact big_le hM (by linarith)
  have hsn : ∀ d, F64.Num (at3 s d) := by
    simp only [forall_fin3, at3_zero, at3_one, at3_two]; exact hs
  have hfac : ∀ d, _ := fun d => factor_err (hsn d) (hw d).1 (hs0 d) (sub_pos.2 (h.lt d)) (hw d).2 (hS d)
  have hpd : ∀ p ∈ l, ∀ d, F64.Num (at3 p d) ∧ |toR (at3 p d)| ≤ M := fun p hp d => (h.ext d).abs_le (h.le d).1 (h.le d).2 hp
  set g : Point3D F64 → Point3D F64 := fun p => p.transformed (Matrix4.scale (s.x / sx) (s.y / sy) (s.z / sz)) with hg
  have hgd : ∀ p ∈ l, ∀ d, F64.Num (at3 (g p) d) ∧ toR (at3 (g p) d) = toR (at3 p d * (at3 s d / at3 (⟨sx, sy, sz⟩ : Point3D F64) d)) := by
    intro p hp d
    have hr := resize_coord (hpd p hp d).1 (hsn d) (hw d).1 (hs0 d) (sub_pos.2 (h.lt d)) (hw d).2 (hpd p hp d).2 hM (hS d) (hSM d)
    have pn : p.Num := ⟨(hpd p hp 0).1, (hpd p hp 1).1, (hpd p hp 2).1⟩
    have hsame := (c98_scale ⟨p.x, p.y⟩ p ⟨pn.1, pn.2.1⟩ pn _ _ _ (hfac 0).1 (hfac 1).1 (hfac 2).1).2 d
    refine toR_of_same ?_ ?_ hr.1
    · revert hsame
      fin_cases d <;> exact id
    · fin_cases d <;> exact add_rep _ _
  refine ⟨l.map g, ?_, fun d => NearMap.of_map _ (fun p hp => ?_) (fun p hp q hq hle => ?_)⟩
  · simp [PointCloud3D.setSize, PointCloud3D.boundingBoxMaybe, hb', Except.toOption, z1, z2, z3, PointCloud3D.transform, hg]
  · obtain ⟨n, e⟩ := hgd p hp d
    refine ⟨n, ?_⟩
    rw [e]
    exact (resize_coord (hpd p hp d).1 (hsn d) (hw d).1 (hs0 d) (sub_pos.2 (h.lt d)) (hw d).2 (hpd p hp d).2 hM (hS d) (hSM d)).2
  · rw [(hgd p hp d).2, (hgd q hq d).2]
    have r1 := resize_coord (hpd p hp d).1 (hsn d) (hw d).1 (hs0 d) (sub_pos.2 (h.lt d)) (hw d).2 (hpd p hp d).2 hM (hS d) (hSM d)
    have r2 := resize_coord (hpd q hq d).1 (hsn d) (hw d).1 (hs0 d) (sub_pos.2 (h.lt d)) (hw d).2 (hpd q hq d).2 hM (hS d) (hSM d)
    exact resize_mono (hpd p hp d).1 (hpd q hq d).1 (hfac d).1 (hfac d).2.1 r1.1 r2.1 hle


/-- the extents that follow from a `NearMap` -/
theorem Spec.NearMap.width {P : Type} {l r : List P} {co : P → F64} {F : ℝ → ℝ} {e : ℝ} (h : NearMap l r co F e) {lo hi : ℝ}
    (hx : Extent l co lo hi) :
    ∃ lo' hi', Extent r co lo' hi' ∧ |(lo' + hi') / 2 - (F lo + F hi) / 2| ≤ e ∧ |(hi' - lo') - (F hi - F lo)| ≤ 2 * e := by
  obtain ⟨lo', hi', h1, h2, h3⟩ := h.extent lo hi hx
  rw [abs_le] at h2 h3
  refine ⟨lo', hi', h1, ?_, ?_⟩ <;> rw [abs_le] <;> constructor <;> linarith

/-- **C101** (what users see): scaling keeps the middle of the extent and multiplies the sizes, `center` moves the middle to
the origin and keeps the sizes, `set_size` gives the requested sizes; up to the errors of the theorems above. -/
theorem c101_extents (l : List (Point3D F64)) (lo hi : Fin 3 → ℝ) (M : ℝ) (h : Spread3 l lo hi M) :
    (∀ f : Positive F64, F64.Num f.val → 0 < toR f.val → (1 + toR f.val) * M ≤ 2 ^ (1000 : ℤ) →
      ∀ d, ∃ lo' hi', Extent (PointCloud3D.scale ⟨l⟩ f).data (fun p => at3 p d) lo' hi' ∧
        |(lo' + hi') / 2 - (lo d + hi d) / 2| ≤ (1 + toR f.val) * (2 ^ (-49 : ℤ) * M + 2 ^ (-1073 : ℤ)) ∧
        |(hi' - lo') - toR f.val * (hi d - lo d)| ≤ 2 * ((1 + toR f.val) * (2 ^ (-49 : ℤ) * M + 2 ^ (-1073 : ℤ)))) ∧
    (M ≤ 2 ^ (999 : ℤ) → ∀ d, ∃ lo' hi', Extent (PointCloud3D.center ⟨l⟩).data (fun p => at3 p d) lo' hi' ∧
        |(lo' + hi') / 2| ≤ 2 ^ (-51 : ℤ) * M + 2 ^ (-1075 : ℤ) ∧
        |(hi' - lo') - (hi d - lo d)| ≤ 2 * (2 ^ (-51 : ℤ) * M + 2 ^ (-1075 : ℤ))) ∧
    (∀ s : Point3D F64, s.Num → (∀ d, 0 < toR (at3 s d)) → M ≤ 2 ^ (1000 : ℤ) → (∀ d, toR (at3 s d) / (hi d - lo d) ≤ 2 ^ (1000 : ℤ)) →
      (∀ d, toR (at3 s d) / (hi d - lo d) * M ≤ 2 ^ (1000 : ℤ)) →
      ∃ r, PointCloud3D.setSize ⟨l⟩ ⟨s.x⟩ ⟨s.y⟩ ⟨s.z⟩ = some ⟨r⟩ ∧ ∀ d, ∃ lo' hi', Extent r (fun p => at3 p d) lo' hi' ∧
        |(hi' - lo') - toR (at3 s d)| ≤ 2 * (2 ^ (-50 : ℤ) * (toR (at3 s d) / (hi d - lo d) * M) + 2 ^ (-1074 : ℤ) * (1 + M))) := by
  refine ⟨fun f hf hf0 hb d => ?_, fun hM d => ?_, fun s hs hs0 hM hS hSM => ?_⟩
  · obtain ⟨lo', hi', a, b, c⟩ := (c101_scale_3d l f lo hi M h hf hf0 hb d).width (h.ext d)
    refine ⟨lo', hi', a, ?_, ?_⟩
    · convert b using 3; ring
    · convert c using 3; ring
  · obtain ⟨lo', hi', a, b, c⟩ := (c101_center l lo hi M h hM d).width (h.ext d)
    refine ⟨lo', hi', a, ?_, ?_⟩
    · convert b using 2; ring
    · convert c using 3; ring
  · obtain ⟨r, hr, hn⟩ := c101_set_size l s lo hi M h hs hs0 hM hS hSM
    refine ⟨r, hr, fun d => ?_⟩
    obtain ⟨lo', hi', a, -, c⟩ := (hn d).width (h.ext d)
    refine ⟨lo', hi', a, ?_⟩
    convert c using 3
    have : hi d - lo d ≠ 0 := (sub_pos.2 (h.lt d)).ne'
    field_simp

/-- **C101** (segments): scaling a segment scales the cloud of its two end points, so that the bounds above apply. -/
theorem c101_segment {α : Type} [Scalar α] (s : LineSegment3D α) (t : LineSegment2D α) (f : Positive α) :
    [(s.scale f).start, (s.scale f).end_] = (PointCloud3D.scale ⟨[s.start, s.end_]⟩ f).data ∧
    [(t.scale f).start, (t.scale f).end_] = (PointCloud2D.scale ⟨[t.start, t.end_]⟩ f).data := by
  constructor
  · unfold LineSegment3D.scale PointCloud3D.scale LineSegment3D.boundingBoxMaybe PointCloud3D.boundingBoxMaybe
    cases (BoundingBox3D.fromIterator [s.start, s.end_]).toOption <;> rfl
  · unfold LineSegment2D.scale PointCloud2D.scale LineSegment2D.boundingBoxMaybe PointCloud2D.boundingBoxMaybe
    cases (BoundingBox2D.fromIterator [t.start, t.end_]).toOption <;> rfl

/-! ### 2D -/

/-- the points have finite coordinates up to `M` in size, which are not all the same in any dimension -/
structure Spec.Spread2 (l : List (Point2D F64)) (lo hi : Fin 2 → ℝ) (M : ℝ) : Prop where
  ext : ∀ d, Extent l (fun p => at2 p d) (lo d) (hi d)
  lt : ∀ d, lo d < hi d
  le : ∀ d, |lo d| ≤ M ∧ |hi d| ≤ M

theorem spread_box_2d {l : List (Point2D F64)} {lo hi : Fin 2 → ℝ} {M : ℝ} (h : Spread2 l lo hi M) :
    ∃ b, BoundingBox2D.fromIterator l = .ok b ∧ (box2 b).Fin ∧ ∀ d, toR ((box2 b).lo d) = lo d ∧ toR ((box2 b).hi d) = hi d := by
  have hn : ∀ p ∈ l, ∀ d, F64.Num (at2 p d) := fun p hp d => ((h.ext d).1 p hp).1
  have hlen : 2 ≤ l.length := by
    obtain ⟨-, ⟨p, hp, e⟩, q, hq, e'⟩ := h.ext 0
    refine two_of_ne hp hq ?_
    rintro rfl
    have := h.lt 0
    rw [← e, ← e'] at this
    exact lt_irrefl _ this
  obtain ⟨b, hb, hv, hm, ht, -⟩ := (c16_from_iterator_2d l fun p hp d => (hn p hp d).ok).2.2 hlen fun d => by
    obtain ⟨-, ⟨p, hp, e⟩, q, hq, e'⟩ := h.ext d
    refine ⟨p, hp, q, hq, ?_⟩
    show F64.key _ ≠ F64.key _
    rw [(hn p hp d).key, (hn q hq d).key]
    intro hh
    have := h.lt d
    rw [← e, ← e', EReal.coe_eq_coe_iff.1 hh] at this
    exact lt_irrefl _ this
  have hk : ∀ d, toR ((box2 b).lo d) = lo d ∧ toR ((box2 b).hi d) = hi d := by
    intro d
    obtain ⟨a, ⟨p, hp, e⟩, q, hq, e'⟩ := h.ext d
    obtain ⟨⟨p', hp', f1⟩, q', hq', f2⟩ := ht d
    have m1 := (hm p hp d).1
    have m2 := (hm q hq d).2
    rw [f1] at m1 ⊢
    rw [f2] at m2 ⊢
    have n1 := toR_le_of_key (hn p' hp' d) (hn p hp d) m1
    have n2 := toR_le_of_key (hn q hq d) (hn q' hq' d) m2
    exact ⟨le_antisymm (n1.trans e.le) (a p' hp').2.1, le_antisymm (a q' hq').2.2 (e'.ge.trans n2)⟩
  refine ⟨b, hb, fun d => ?_, hk⟩
  obtain ⟨⟨p', hp', f1⟩, q', hq', f2⟩ := ht d
  refine ⟨f1 ▸ hn p' hp' d, f2 ▸ hn q' hq' d, ?_⟩
  rw [(hk d).1, (hk d).2]
  exact h.lt d

theorem spread_center_2d {l : List (Point2D F64)} {lo hi : Fin 2 → ℝ} {M : ℝ} (h : Spread2 l lo hi M) (hM : M ≤ 2 ^ (1000 : ℤ)) :
    ∃ b, BoundingBox2D.fromIterator l = .ok b ∧ (box2 b).Fin ∧ (∀ d, toR ((box2 b).lo d) = lo d ∧ toR ((box2 b).hi d) = hi d) ∧
      ∀ d, F64.Num (at2 b.centerBB d) ∧ |toR (at2 b.centerBB d)| ≤ M ∧
        |toR (at2 b.centerBB d) - (lo d + hi d) / 2| ≤ 2 * uu * M + 2 ^ (-1075 : ℤ) := by
  obtain ⟨b, hb, hf, hk⟩ := spread_box_2d h
  refine ⟨b, hb, hf, hk, fun d => ?_⟩
  have hc := c97_center.1 b hf (fun d => ?_) d
  · have := mid_err (M := M) hc (by rw [(hk d).1]; exact (h.le d).1) (by rw [(hk d).2]; exact (h.le d).2)
    rw [(hk d).1, (hk d).2] at this
    exact this
  · rw [(hk d).1, (hk d).2]
    have h1 := _root_.abs_le.1 (h.le d).1
    have h2 := _root_.abs_le.1 (h.le d).2
    have h0 : 0 ≤ M := (abs_nonneg _).trans (h.le d).1
    exact big_le hM (by linarith)

/-- **C101** (scale): every coordinate is scaled about the middle of the extent up to a relative error of `2^-49`, the
order of the points in every dimension is kept exactly. -/
theorem c101_scale_2d (l : List (Point2D F64)) (f : Positive F64) (lo hi : Fin 2 → ℝ) (M : ℝ) (h : Spread2 l lo hi M)
    (hf : F64.Num f.val) (hf0 : 0 < toR f.val) (hb : (1 + toR f.val) * M ≤ 2 ^ (1000 : ℤ)) (d : Fin 2) :
    NearMap l (PointCloud2D.scale ⟨l⟩ f).data (fun p => at2 p d) (fun x => (lo d + hi d) / 2 + toR f.val * (x - (lo d + hi d) / 2))
      ((1 + toR f.val) * (2 ^ (-49 : ℤ) * M + 2 ^ (-1073 : ℤ))) := by
  have hM0 : 0 ≤ M := (abs_nonneg _).trans (h.le 0).1
  have hM : M ≤ 2 ^ (1000 : ℤ) := le_trans (by nlinarith) hb
  obtain ⟨b, hb', -, -, hc⟩ := spread_center_2d h hM
  have e : (PointCloud2D.scale ⟨l⟩ f).data = l.map (fun p => p.increaseDistanceToBy b.centerBB f) := by
    simp [PointCloud2D.scale, PointCloud2D.boundingBoxMaybe, hb', Except.toOption]
  rw [e]
  obtain ⟨c1, c2, c3⟩ := hc d
  have hat : ∀ p : Point2D F64, at2 (p.increaseDistanceToBy b.centerBB f) d = at2 b.centerBB d + f.val * (at2 p d - at2 b.centerBB d) := by
    intro p; fin_cases d <;> rfl
  refine NearMap.of_map _ (fun p hp => ?_) (fun p hp q hq hle => ?_)
  · rw [hat]
    obtain ⟨n, a⟩ := (h.ext d).abs_le (h.le d).1 (h.le d).2 hp
    exact scale_mid c1 n hf c2 a hf0.le hb c3
  · rw [hat, hat]
    obtain ⟨n, a⟩ := (h.ext d).abs_le (h.le d).1 (h.le d).2 hp
    obtain ⟨n', a'⟩ := (h.ext d).abs_le (h.le d).1 (h.le d).2 hq
    exact scale_mono c1 n n' hf c2 a a' hf0.le hb hle


/-- **C101** (move_by): every coordinate is shifted up to one rounding, the order in every dimension is kept. -/
theorem c101_move_2d (l : List (Point2D F64)) (v : Point2D F64) (lo hi : Fin 2 → ℝ) (M : ℝ)
    (h : ∀ d, Extent l (fun p => at2 p d) (lo d) (hi d)) (hle : ∀ d, |lo d| ≤ M ∧ |hi d| ≤ M) (hv : v.Num)
    (hb : ∀ d, M + |toR (at2 v d)| ≤ 2 ^ (1000 : ℤ)) (d : Fin 2) :
    NearMap l (PointCloud2D.moveBy ⟨l⟩ v.x v.y).data (fun p => at2 p d) (fun x => x + toR (at2 v d))
      (2 ^ (-53 : ℤ) * (M + |toR (at2 v d)|)) := by
  have hat : ∀ p : Point2D F64, at2 (p.moveBy v.x v.y) d = at2 p d + at2 v d := by
    intro p; fin_cases d <;> rfl
  have hvd : F64.Num (at2 v d) := by
    clear hat; revert d; simp only [Fin.forall_fin_two, at2_zero, at2_one]; exact hv
  refine NearMap.of_map _ (fun p hp => ?_) (fun p hp q hq hpq => ?_)
  · rw [hat]
    obtain ⟨n, a⟩ := (h d).abs_le (hle d).1 (hle d).2 hp
    exact shift_coord n hvd a (hb d)
  · rw [hat, hat]
    obtain ⟨n, a⟩ := (h d).abs_le (hle d).1 (hle d).2 hp
    obtain ⟨n', a'⟩ := (h d).abs_le (hle d).1 (hle d).2 hq
    exact shift_mono n n' hvd a a' (hb d) hpq

/-- **C101** scaling is not exact: scaling by 1 changes points, here the first from (0.1, 0.1) to the origin. -/
theorem c101_violated :
    PointCloud2D.scale ⟨[⟨f (1/10), f (1/10)⟩, ⟨f (10^18), f (10^18)⟩]⟩ ⟨f 1⟩ = ⟨[⟨f 0, f 0⟩, ⟨f (10^18), f (10^18)⟩]⟩ ∧
    (f (1/10) : F64) ≠ f 0 := by
  decide +kernel

/-- the hypotheses are met -/
example : Spread3 [⟨f 0, f 1, f 2⟩, ⟨f 3, f 2, f 1⟩] (fun d => ![0, 1, 1] d) (fun d => ![3, 2, 2] d) 3 := by
  have h0 := ex_num 0 false 0 (by decide +kernel)
  have h1 := ex_num 1 false 1 (by decide +kernel)
  have h2 := ex_num 2 false 2 (by decide +kernel)
  have h3 := ex_num 3 false 3 (by decide +kernel)
  simp only [val, Bool.false_eq_true, if_false] at h0 h1 h2 h3
  constructor
  · simp [Spec.forall_fin3, Extent, at3_zero, at3_one, at3_two, h0, h1, h2, h3]
  · simp [Spec.forall_fin3]
  · simp [Spec.forall_fin3]
    norm_num

/-- two dimensions, a factor and a size -/
example : Spread2 [⟨f 0, f 1⟩, ⟨f 3, f 2⟩] (fun d => ![0, 1] d) (fun d => ![3, 2] d) 3 ∧
    F64.Num (f 2) ∧ 0 < toR (f 2) ∧ (1 + toR (f 2)) * 3 ≤ 2 ^ (1000 : ℤ) ∧
    ∀ d : Fin 3, toR (f 2) / ((fun d => ![3, 2, 2] d) d - (fun d => ![0, 1, 1] d) d : ℝ) * 3 ≤ 2 ^ (1000 : ℤ) := by
  have h0 := ex_num 0 false 0 (by decide +kernel)
  have h1 := ex_num 1 false 1 (by decide +kernel)
  have h2 := ex_num 2 false 2 (by decide +kernel)
  have h3 := ex_num 3 false 3 (by decide +kernel)
  simp only [val, Bool.false_eq_true, if_false] at h0 h1 h2 h3
  have big : (9:ℝ) ≤ 2 ^ (1000 : ℤ) :=
    le_trans (by norm_num) (zpow_le_zpow_right₀ one_le_two (show (4:ℤ) ≤ 1000 by norm_num))
  have v2 : toR (f 2) = 2 := by rw [h2.2]; norm_num
  refine ⟨⟨?_, ?_, ?_⟩, h2.1, by rw [v2]; norm_num, le_trans (by rw [v2]; norm_num) big, fun d => le_trans ?_ big⟩
  · simp [Extent, at2_zero, at2_one, h0, h1, h2, h3]
  · simp
  · simp
    norm_num
  · rw [v2]; revert d; simp only [Spec.forall_fin3, Matrix.cons_val]; norm_num

end R3D
