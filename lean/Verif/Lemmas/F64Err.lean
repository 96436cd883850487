import Verif.Lemmas.F64Dist
import Verif.Model.BoundingBox
import Mathlib.Tactic.Positivity
import Mathlib.Tactic.NormNum
import Mathlib.Tactic.Linarith
/-!
Rounding errors.
-/
namespace R3D
namespace F64

/-! ### relative errors of rounding -/

theorem rel_rnd {q : ℚ} (h : (2:ℚ) ^ (-1022 : ℤ) ≤ q) : |rnd q - q| ≤ 2 ^ (-53 : ℤ) * q := by
  have h0 : 0 < q := (two_zpow_pos _).trans_le h
  obtain ⟨h1, h2⟩ := ilog2_spec h0
  have hl : -1022 ≤ ilog2 q := by
    have := h.trans_lt h2
    rw [zpow_lt_zpow_iff_right₀ one_lt_two] at this
    omega
  refine (rnd_near h0).trans ?_
  have e : lsb q - 1 = -53 + ilog2 q := by unfold lsb; omega
  rw [e, zpow_add₀ two_ne_zero]
  exact mul_le_mul_of_nonneg_left h1 (two_zpow_pos _).le

/-- sums and differences of numbers of the format do not underflow -/
theorem rel_rnd_mult {q : ℚ} (k : ℕ) (hq : q = k * (2:ℚ) ^ (-1074 : ℤ)) : |rnd q - q| ≤ 2 ^ (-53 : ℤ) * q := by
  by_cases h : (2:ℚ) ^ (-1022 : ℤ) ≤ q
  · exact rel_rnd h
  · have hd : Dyad q := by
      refine ⟨k, -1074, ?_, le_rfl, hq⟩
      by_contra hk
      apply h
      rw [hq, show (-1022 : ℤ) = 52 + -1074 by norm_num, zpow_add₀ two_ne_zero]
      refine mul_le_mul_of_nonneg_right ?_ (two_zpow_pos _).le
      have : (2:ℚ) ^ (52:ℤ) ≤ ((2 ^ 53 : ℕ) : ℚ) := by norm_num
      exact this.trans (by exact_mod_cast not_lt.1 hk)
    rw [rnd_exact hd, sub_self, abs_zero]
    have : 0 ≤ q := by rw [hq]; positivity
    positivity

theorem abs_rnd {q : ℚ} (h : 0 ≤ q) : |rnd q - q| ≤ 2 ^ (-53 : ℤ) * q + 2 ^ (-1075 : ℤ) := by
  by_cases h1 : (2:ℚ) ^ (-1022 : ℤ) ≤ q
  · exact (rel_rnd h1).trans (le_add_of_nonneg_right (two_zpow_pos _).le)
  · rcases h.eq_or_lt with rfl | h0
    · rw [rnd_of_nonpos le_rfl]; simp
    refine (rnd_near h0).trans ?_
    have : lsb q = -1074 := by
      have := (ilog2_spec h0).1.trans_lt (not_le.1 h1)
      rw [zpow_lt_zpow_iff_right₀ one_lt_two] at this
      unfold lsb; omega
    rw [this, show (-1074 : ℤ) - 1 = -1075 by norm_num]
    exact le_add_of_nonneg_left (mul_nonneg (two_zpow_pos _).le h)

theorem Dyad.mult {q : ℚ} (h : Dyad q) : ∃ k : ℕ, q = k * (2:ℚ) ^ (-1074 : ℤ) := by
  obtain ⟨m, e, -, he, rfl⟩ := h
  obtain ⟨d, hd⟩ : ∃ d : ℕ, e = d + -1074 := ⟨(e + 1074).toNat, by omega⟩
  refine ⟨m * 2 ^ d, ?_⟩
  rw [hd, zpow_add₀ two_ne_zero]
  push_cast
  rw [zpow_natCast]; ring

theorem rel_rnd_add {a b : ℚ} (ha : Dyad a) (hb : Dyad b) : |rnd (a + b) - (a + b)| ≤ 2 ^ (-53 : ℤ) * (a + b) := by
  obtain ⟨k, hk⟩ := ha.mult
  obtain ⟨l, hl⟩ := hb.mult
  refine rel_rnd_mult (k + l) ?_
  rw [hk, hl]; push_cast; ring

theorem val_mult {s : Bool} {m : ℚ} (h : Dyad m) : ∃ k : ℤ, val s m = k * (2:ℚ) ^ (-1074 : ℤ) := by
  obtain ⟨k, hk⟩ := h.mult
  cases s
  · exact ⟨k, by simp [val, hk]⟩
  · exact ⟨-k, by simp [val, hk]⟩

theorem rel_rnd_sub {s t : Bool} {m n : ℚ} (hm : Dyad m) (hn : Dyad n) :
    _root_.abs (rnd |val s m - val t n| - |val s m - val t n|) ≤ 2 ^ (-53 : ℤ) * |val s m - val t n| := by
  obtain ⟨k, hk⟩ := val_mult (s := s) hm
  obtain ⟨l, hl⟩ := val_mult (s := t) hn
  refine rel_rnd_mult (k - l).natAbs ?_
  rw [hk, hl, ← sub_mul, abs_mul, abs_of_pos (two_zpow_pos _)]
  congr 1
  rw [Nat.cast_natAbs]
  push_cast
  rfl

/-- the square of the rounded root -/
theorem sqrtArg_sq {q : ℚ} (h : 0 < q) : |sqrtArg q * sqrtArg q - q| ≤ 2 ^ (-55 : ℤ) * q := by
  obtain ⟨h1, h2⟩ := sqrtS_spec h
  have h3 := (hlog_spec h).1
  have hk : 56 ≤ hlog q + sqrtK q := by unfold sqrtK hlog; omega
  set x := q * (4:ℚ) ^ sqrtK q with hx
  have hp : 0 < (4:ℚ) ^ sqrtK q := zpow_pos (by norm_num) _
  have hbig : (2:ℚ) ^ (56:ℤ) * 2 ^ (56:ℤ) ≤ x := by
    rw [hx, four_zpow]
    have e : (2:ℚ) ^ hlog q * 2 ^ hlog q * (2 ^ sqrtK q * 2 ^ sqrtK q) ≤ q * (2 ^ sqrtK q * 2 ^ sqrtK q) :=
      mul_le_mul_of_nonneg_right h3 (by positivity)
    refine le_trans ?_ e
    have : (2:ℚ) ^ (56:ℤ) ≤ 2 ^ (hlog q + sqrtK q) := zpow_le_zpow_right₀ one_le_two hk
    rw [zpow_add₀ two_ne_zero] at this
    have h5 := mul_le_mul this this (by positivity) (by positivity)
    calc _ ≤ _ := h5
      _ = _ := by ring
  -- the claim scaled
  have scaled : |(sqrtS q + if (sqrtS q * sqrtS q : ℚ) = x then 0 else 1 / 2) *
      (sqrtS q + if (sqrtS q * sqrtS q : ℚ) = x then 0 else 1 / 2) - x| ≤ 2 ^ (-55 : ℤ) * x := by
    set n : ℚ := (sqrtS q : ℚ) with hn
    have hn0 : 0 ≤ n := by positivity
    split_ifs with hc
    · rw [add_zero, hc, sub_self, abs_zero]; positivity
    · have hn1 : (2:ℚ) ^ (56:ℤ) - 1 ≤ n := by
        by_contra hlt
        have := not_le.1 hlt
        have h6 : (n + 1) * (n + 1) ≤ (2:ℚ) ^ (56:ℤ) * 2 ^ (56:ℤ) := mul_le_mul (by linarith) (by linarith) (by linarith) (by positivity)
        linarith
      have hn2 : (2:ℚ) ^ (55:ℤ) + 1 ≤ n := le_trans (by norm_num) hn1
      have h7 : n + 1 ≤ 2 ^ (-55 : ℤ) * x := by
        have : (2:ℚ) ^ (55:ℤ) * (n + 1) ≤ n * n := by nlinarith
        have e : (2:ℚ) ^ (-55 : ℤ) * (2 ^ (55:ℤ) * (n + 1)) = n + 1 := by
          rw [← mul_assoc, ← zpow_add₀ two_ne_zero]; norm_num
        rw [← e]
        exact mul_le_mul_of_nonneg_left (this.trans h1) (by positivity)
      rw [abs_le]
      constructor <;> nlinarith
  have e : ∀ a : ℚ, a * (2:ℚ) ^ (-sqrtK q) * (a * 2 ^ (-sqrtK q)) - q = (a * a - x) * ((2:ℚ) ^ (-sqrtK q) * 2 ^ (-sqrtK q)) := by
    intro a
    rw [hx, four_zpow, sub_mul]
    have : q * ((2:ℚ) ^ sqrtK q * 2 ^ sqrtK q) * (2 ^ (-sqrtK q) * 2 ^ (-sqrtK q)) = q := by
      have := zpow_ne_zero (sqrtK q) (two_ne_zero (α := ℚ))
      rw [zpow_neg]; field_simp
    rw [this]; ring
  unfold sqrtArg
  rw [e, abs_mul, abs_of_pos (a := (2:ℚ) ^ (-sqrtK q) * 2 ^ (-sqrtK q)) (by positivity)]
  have e2 : q = x * ((2:ℚ) ^ (-sqrtK q) * 2 ^ (-sqrtK q)) := by
    have := zpow_ne_zero (sqrtK q) (two_ne_zero (α := ℚ))
    rw [hx, four_zpow, zpow_neg]; field_simp
  calc _ ≤ 2 ^ (-55 : ℤ) * x * ((2:ℚ) ^ (-sqrtK q) * 2 ^ (-sqrtK q)) := mul_le_mul_of_nonneg_right scaled (by positivity)
    _ = 2 ^ (-55 : ℤ) * q := by rw [mul_assoc, ← e2]

/-- the square of the computed root is the argument up to a relative error of 2.5 units -/
theorem sqrtVal_sq_near {S : ℚ} (h : 0 < S) (hd : Dyad S) :
    |sqrtVal S * sqrtVal S - S| ≤ 10 * 2 ^ (-55 : ℤ) * S := by
  have hA := sqrtArg_pos h
  have h1 := sqrtArg_sq h
  have hS : (2:ℚ) ^ (-1074 : ℤ) ≤ S := by
    obtain ⟨k, hk⟩ := hd.mult
    have : k ≠ 0 := by rintro rfl; rw [hk] at h; simp at h
    rw [hk]
    exact le_mul_of_one_le_left (two_zpow_pos _).le (by exact_mod_cast Nat.one_le_iff_ne_zero.2 this)
  have h2 : (2:ℚ) ^ (-1022 : ℤ) ≤ sqrtArg S := by
    refine le_trans ?_ (sqrtArg_pos_bounds h).1
    exact zpow_le_zpow_right₀ one_le_two (by have := (sqrtVal_form h hS).1; omega)
  have h3 := rel_rnd h2
  unfold sqrtVal
  set A := sqrtArg S
  set D := rnd A
  have hu : (2:ℚ) ^ (-53:ℤ) = 1 / 2 ^ 53 := by norm_num
  have hv : (2:ℚ) ^ (-55:ℤ) = 1 / 2 ^ 55 := by norm_num
  rw [hu] at h3
  rw [hv] at h1 ⊢
  rw [abs_le] at h1 h3 ⊢
  have l1 : (1 - 1 / 2 ^ 53) * A ≤ D := by linarith
  have l2 : D ≤ (1 + 1 / 2 ^ 53) * A := by linarith
  have hD : 0 ≤ D := rnd_nonneg _
  have q1 : ((1 - 1 / 2 ^ 53) * A) * ((1 - 1 / 2 ^ 53) * A) ≤ D * D :=
    mul_le_mul l1 l1 (by have : (0:ℚ) ≤ 1 - 1 / 2 ^ 53 := by norm_num
                         positivity) hD
  have q2 : D * D ≤ ((1 + 1 / 2 ^ 53) * A) * ((1 + 1 / 2 ^ 53) * A) := mul_le_mul l2 l2 hD (by positivity)
  have e1 : ((1 - 1 / 2 ^ 53) * A) * ((1 - 1 / 2 ^ 53) * A) = (1 - 1 / 2 ^ 53) ^ 2 * (A * A) := by ring
  have e2 : ((1 + 1 / 2 ^ 53) * A) * ((1 + 1 / 2 ^ 53) * A) = (1 + 1 / 2 ^ 53) ^ 2 * (A * A) := by ring
  rw [e1] at q1
  rw [e2] at q2
  norm_num at q1 q2 h1 ⊢
  constructor <;> linarith

/-- the unit of rounding and the underflow threshold as numerals -/
theorem u_eq : (2:ℚ) ^ (-53:ℤ) = 1 / 9007199254740992 := by norm_num

/-- the square of a rounded difference -/
theorem sq_err {δ d s : ℚ} (h0 : 0 ≤ δ) (h1 : |d - δ| ≤ 2 ^ (-53 : ℤ) * δ) (h2 : |s - d * d| ≤ 2 ^ (-53 : ℤ) * (d * d) + 2 ^ (-1075 : ℤ)) :
    (1 - 2 ^ (-53 : ℤ)) ^ 3 * δ ^ 2 - 2 ^ (-1075 : ℤ) ≤ s ∧ s ≤ (1 + 2 ^ (-53 : ℤ)) ^ 3 * δ ^ 2 + 2 ^ (-1075 : ℤ) := by
  have hu1 : (2:ℚ) ^ (-53:ℤ) ≤ 1 := by norm_num
  have hu0 := two_zpow_pos (-53)
  generalize (2:ℚ) ^ (-53:ℤ) = u at *
  generalize (2:ℚ) ^ (-1075:ℤ) = η at *
  rw [abs_le] at h1 h2
  have l1 : (1 - u) * δ ≤ d := by linarith
  have l2 : d ≤ (1 + u) * δ := by linarith
  have l3 : 0 ≤ (1 - u) * δ := mul_nonneg (by linarith) h0
  have q1 := mul_le_mul l1 l1 l3 (l3.trans l1)
  have q2 := mul_le_mul l2 l2 (l3.trans l1) (by positivity)
  have r1 := mul_le_mul_of_nonneg_left q1 (show 0 ≤ 1 - u by linarith)
  have r2 := mul_le_mul_of_nonneg_left q2 (show 0 ≤ 1 + u by linarith)
  constructor
  · have e : (1 - u) ^ 3 * δ ^ 2 = (1 - u) * ((1 - u) * δ * ((1 - u) * δ)) := by ring
    rw [e]; linarith [h2.1]
  · have e : (1 + u) ^ 3 * δ ^ 2 = (1 + u) * ((1 + u) * δ * ((1 + u) * δ)) := by ring
    rw [e]; linarith [h2.2]

/-- a rounded sum of three rounded squares -/
theorem sum3_err {a b c x y z t S η : ℚ} (hη : 0 ≤ η) (hx0 : 0 ≤ x) (hy0 : 0 ≤ y) (hz0 : 0 ≤ z)
    (ha : 0 ≤ a) (hb : 0 ≤ b) (hc : 0 ≤ c)
    (hx : (1 - 2 ^ (-53 : ℤ)) ^ 3 * a - η ≤ x ∧ x ≤ (1 + 2 ^ (-53 : ℤ)) ^ 3 * a + η)
    (hy : (1 - 2 ^ (-53 : ℤ)) ^ 3 * b - η ≤ y ∧ y ≤ (1 + 2 ^ (-53 : ℤ)) ^ 3 * b + η)
    (hz : (1 - 2 ^ (-53 : ℤ)) ^ 3 * c - η ≤ z ∧ z ≤ (1 + 2 ^ (-53 : ℤ)) ^ 3 * c + η)
    (ht : |t - (x + y)| ≤ 2 ^ (-53 : ℤ) * (x + y)) (hS : |S - (t + z)| ≤ 2 ^ (-53 : ℤ) * (t + z)) :
    |S - (a + b + c)| ≤ 21 * 2 ^ (-55 : ℤ) * (a + b + c) + 4 * η := by
  have hv : (2:ℚ) ^ (-55:ℤ) = 1 / 36028797018963968 := by norm_num
  rw [u_eq] at *
  rw [hv]
  rw [abs_le] at *
  norm_num at hx hy hz ht hS ⊢
  constructor <;> linarith

theorem sum2_err {a b x y S η : ℚ} (hη : 0 ≤ η) (hx0 : 0 ≤ x) (hy0 : 0 ≤ y)
    (ha : 0 ≤ a) (hb : 0 ≤ b)
    (hx : (1 - 2 ^ (-53 : ℤ)) ^ 3 * a - η ≤ x ∧ x ≤ (1 + 2 ^ (-53 : ℤ)) ^ 3 * a + η)
    (hy : (1 - 2 ^ (-53 : ℤ)) ^ 3 * b - η ≤ y ∧ y ≤ (1 + 2 ^ (-53 : ℤ)) ^ 3 * b + η)
    (hS : |S - (x + y)| ≤ 2 ^ (-53 : ℤ) * (x + y)) :
    |S - (a + b)| ≤ 21 * 2 ^ (-55 : ℤ) * (a + b) + 4 * η := by
  have hv : (2:ℚ) ^ (-55:ℤ) = 1 / 36028797018963968 := by norm_num
  rw [u_eq] at *
  rw [hv]
  rw [abs_le] at *
  norm_num at hx hy hS ⊢
  constructor <;> linarith

/-- the square of the root of a nearly right sum -/
theorem root_err {M S D η : ℚ} (hη : 0 ≤ η) (hM : 0 ≤ M) (h0 : 0 ≤ S)
    (h1 : |S - M| ≤ 21 * 2 ^ (-55 : ℤ) * M + 4 * η) (h2 : |D * D - S| ≤ 10 * 2 ^ (-55 : ℤ) * S) :
    |D * D - M| ≤ 2 ^ (-50 : ℤ) * M + 8 * η := by
  have hv : (2:ℚ) ^ (-55:ℤ) = 1 / 36028797018963968 := by norm_num
  have hw : (2:ℚ) ^ (-50:ℤ) = 1 / 1125899906842624 := by norm_num
  rw [hv] at h1 h2
  rw [hw]
  rw [abs_le] at *
  constructor <;> linarith

/-- from squares to lengths -/
theorem length_err {M D e η r : ℝ} (hM : 0 ≤ M) (hD : 0 ≤ D) (he0 : 0 ≤ e) (he1 : e ≤ 1) (hr : 0 ≤ r) (hη : r * r = η)
    (h : |D * D - M| ≤ e * M + η) : |D - √M| ≤ e * √M + r := by
  have hm := Real.sqrt_nonneg M
  have hmm := Real.mul_self_sqrt hM
  set m := √M
  rw [← hmm, ← hη] at h
  rw [abs_le] at *
  constructor
  · by_contra hc
    have hlt : D < (1 - e) * m - r := by linarith [not_le.1 hc]
    have hpos : 0 < (1 - e) * m - r := hD.trans_lt hlt
    have h1 : D * D < ((1 - e) * m - r) * ((1 - e) * m - r) := mul_self_lt_mul_self hD hlt
    have h2 : r ≤ (1 - e) * m := by linarith
    have h3 : ((1 - e) * m - r) * ((1 - e) * m - r) ≤ (1 - e) * (m * m) - r * r := by
      have a1 : r * r ≤ r * ((1 - e) * m) := mul_le_mul_of_nonneg_left h2 hr
      have a2 : (1 - e) * ((1 - e) * (m * m)) ≤ (1 - e) * (m * m) := by
        have : (1 - e) * (m * m) ≤ m * m := by nlinarith [mul_nonneg hm hm]
        exact mul_le_mul_of_nonneg_left this (by linarith)
      nlinarith
    linarith [h.1]
  · by_contra hc
    have hlt : (1 + e) * m + r < D := by linarith [not_le.1 hc]
    have h1 : ((1 + e) * m + r) * ((1 + e) * m + r) < D * D := mul_self_lt_mul_self (by positivity) hlt
    have h2 : (1 + e) * (m * m) + r * r ≤ ((1 + e) * m + r) * ((1 + e) * m + r) := by
      have a1 : 0 ≤ (1 + e) * m * r := by positivity
      have a2 : 0 ≤ e * ((1 + e) * (m * m)) := by positivity
      nlinarith
    linarith [h.2]

/-! ### the operations -/

/-- the value of a finite number -/
noncomputable def toR (a : F64) : ℝ := (key a).toReal

theorem real_fin (s : Bool) (m : ℚ) : toR (.fin s m) = ((val s m : ℚ) : ℝ) := by
  show (((val s m : ℚ) : ℝ) : EReal).toReal = _
  rw [EReal.toReal_coe]

theorem Num.key {a : F64} (h : Num a) : F64.key a = (toR a : EReal) := by
  obtain ⟨⟨s, m, rfl⟩, -⟩ := h
  rw [real_fin]; rfl

/-- integer multiples of the smallest positive number -/
def Mult (q : ℚ) : Prop := ∃ k : ℤ, q = k * (2:ℚ) ^ (-1074 : ℤ)

theorem Mult.sub {p q : ℚ} (hp : Mult p) (hq : Mult q) : Mult (p - q) := by
  obtain ⟨k, rfl⟩ := hp
  obtain ⟨l, rfl⟩ := hq
  exact ⟨k - l, by push_cast; ring⟩

theorem Mult.zero : Mult 0 := ⟨0, by simp⟩

theorem Mult.max {p q : ℚ} (hp : Mult p) (hq : Mult q) : Mult (max p q) := by
  rcases max_choice p q with h | h <;> rw [h] <;> assumption

theorem Mult.abs {p : ℚ} (hp : Mult p) : Mult |p| := by
  rcases abs_choice p with h | h <;> rw [h]
  · exact hp
  · have := Mult.zero.sub hp; rwa [zero_sub] at this

theorem Mult.rel {q : ℚ} (h : Mult q) (h0 : 0 ≤ q) : |rnd q - q| ≤ 2 ^ (-53 : ℤ) * q := by
  obtain ⟨k, hk⟩ := h
  refine rel_rnd_mult k.toNat ?_
  have : 0 ≤ k := by
    by_contra hc
    have h1 : (k:ℚ) < 0 := by exact_mod_cast not_le.1 hc
    have := mul_neg_of_neg_of_pos h1 (two_zpow_pos (-1074))
    linarith
  rw [hk]
  congr 1
  have : ((k.toNat : ℤ) : ℚ) = (k : ℚ) := by rw [Int.toNat_of_nonneg this]
  exact_mod_cast this.symm

/-- `a` is `r` up to sign and one rounding without underflow -/
def Near1 (a : F64) (r : ℝ) : Prop :=
  ∃ δ : ℚ, 0 ≤ δ ∧ Mult δ ∧ F64.abs a = round false δ ∧ (δ : ℝ) = |r|

theorem near_num {a : F64} (h : Num a) : Near1 a (toR a) := by
  obtain ⟨⟨s, m, rfl⟩, r⟩ := h
  refine ⟨m, r.1, ?_, ?_, ?_⟩
  · obtain ⟨k, hk⟩ := r.2.2.mult
    exact ⟨k, by rw [hk]; simp⟩
  · show F64.fin false m = _
    rw [round_exact false (m := m) r]
  · rw [real_fin]
    have h0 : (0:ℝ) ≤ (m:ℝ) := by exact_mod_cast r.1
    cases s <;> simp [val, abs_of_nonneg h0]

theorem near_sub {a b : F64} (ha : Num a) (hb : Num b) : Near1 (a - b) (toR a - toR b) := by
  obtain ⟨⟨s, m, rfl⟩, r⟩ := ha
  obtain ⟨⟨t, n, rfl⟩, r'⟩ := hb
  obtain ⟨c, hc⟩ := sub_form s t m n
  refine ⟨|val s m - val t n|, abs_nonneg _, (Mult.sub (val_mult r.2.2) (val_mult r'.2.2)).abs, ?_, ?_⟩
  · show F64.abs (F64.sub _ _) = _
    rw [hc, abs_round]
  · rw [real_fin, real_fin]; push_cast; rfl

theorem near_zero (s : Bool) : Near1 (.fin s 0) 0 :=
  ⟨0, le_rfl, Mult.zero, by rw [round_zero]; rfl, by simp⟩

theorem mul_self_abs (a : F64) : F64.mul a a = F64.mul (F64.abs a) (F64.abs a) := by
  cases a <;> simp [F64.mul, F64.abs]

theorem Near1.nonNeg {a : F64} {r : ℝ} (h : Near1 a r) : NonNeg (a * a) := by
  obtain ⟨δ, -, -, h3, -⟩ := h
  show NonNeg (F64.mul a a)
  rw [mul_self_abs, h3]
  exact mul_self_nonNeg (round_nonNeg δ).ok

/-- the square of a nearly right number -/
theorem Near1.sq {a : F64} {r : ℝ} (h : Near1 a r) {s : Bool} {m : ℚ} (hm : a * a = .fin s m) :
    ∃ c : ℚ, 0 ≤ c ∧ (c : ℝ) = r * r ∧
      (1 - 2 ^ (-53 : ℤ)) ^ 3 * c - 2 ^ (-1075 : ℤ) ≤ m ∧ m ≤ (1 + 2 ^ (-53 : ℤ)) ^ 3 * c + 2 ^ (-1075 : ℤ) := by
  obtain ⟨δ, h1, h2, h3, h4⟩ := h
  change F64.mul a a = _ at hm
  rw [mul_self_abs, h3, round_eq] at hm
  refine ⟨δ ^ 2, by positivity, by rw [← abs_mul_abs_self, ← h4]; push_cast; ring, ?_⟩
  split_ifs at hm with hc
  · simp [F64.mul] at hm
  · simp only [F64.mul] at hm
    rw [round_eq] at hm
    split_ifs at hm
    have e : m = rnd (rnd δ * rnd δ) := (F64.fin.inj hm).2.symm
    have := sq_err h1 (h2.rel h1) (abs_rnd (mul_self_nonneg (rnd δ)))
    rwa [← e] at this

theorem add_nonNeg_fin {a b : F64} (ha : NonNeg a) (hb : NonNeg b) {s : Bool} {m : ℚ} (h : a + b = .fin s m) :
    ∃ x y : ℚ, a = .fin false x ∧ b = .fin false y ∧ Rep (.fin false x) ∧ Rep (.fin false y) ∧ m = rnd (x + y) := by
  change F64.add a b = _ at h
  rcases ha with rfl | ⟨x, rfl, hx⟩ <;> rcases hb with rfl | ⟨y, rfl, hy⟩
  · simp [F64.add] at h
  · simp [F64.add] at h
  · simp [F64.add] at h
  · refine ⟨x, y, rfl, rfl, hx, hy, ?_⟩
    simp only [F64.add, val, Bool.false_eq_true, if_false] at h
    split_ifs at h with h1
    · rw [h1, rnd_of_nonpos le_rfl]; exact (F64.fin.inj h).2.symm
    · unfold ofRat at h
      rw [if_neg (not_lt.2 (add_nonneg hx.1 hy.1)), round_eq] at h
      split_ifs at h
      exact (F64.fin.inj h).2.symm

/-- relative and absolute error of a computed sum of squares -/
def SumErr (S M : ℚ) : Prop := |S - M| ≤ 21 * 2 ^ (-55 : ℤ) * M + 4 * 2 ^ (-1075 : ℤ)

theorem sumsq2 {a b : F64} {x y : ℝ} (ha : Near1 a x) (hb : Near1 b y) {s : Bool} {S : ℚ} (h : a * a + b * b = .fin s S) :
    ∃ M : ℚ, (M : ℝ) = x * x + y * y ∧ 0 ≤ M ∧ SumErr S M := by
  obtain ⟨u, v, hu, hv, ru, rv, hS⟩ := add_nonNeg_fin ha.nonNeg hb.nonNeg h
  obtain ⟨c, c0, hc, ec⟩ := ha.sq hu
  obtain ⟨d, d0, hd, ed⟩ := hb.sq hv
  refine ⟨c + d, by push_cast; rw [hc, hd], add_nonneg c0 d0, ?_⟩
  refine sum2_err (two_zpow_pos _).le ru.1 rv.1 c0 d0 ec ed ?_
  rw [hS]; exact rel_rnd_add ru.2.2 rv.2.2

theorem sumsq3 {a b c : F64} {x y z : ℝ} (ha : Near1 a x) (hb : Near1 b y) (hc : Near1 c z) {s : Bool} {S : ℚ}
    (h : a * a + b * b + c * c = .fin s S) :
    ∃ M : ℚ, (M : ℝ) = x * x + y * y + z * z ∧ 0 ≤ M ∧ SumErr S M := by
  obtain ⟨t, w, ht, hw, rt, rw', hS⟩ := add_nonNeg_fin (add_nonNeg ha.nonNeg hb.nonNeg) hc.nonNeg h
  obtain ⟨u, v, hu, hv, ru, rv, hT⟩ := add_nonNeg_fin ha.nonNeg hb.nonNeg ht
  obtain ⟨k, k0, hk, ek⟩ := ha.sq hu
  obtain ⟨l, l0, hl, el⟩ := hb.sq hv
  obtain ⟨m, m0, hm, em⟩ := hc.sq hw
  refine ⟨k + l + m, by push_cast; rw [hk, hl, hm], by positivity, ?_⟩
  refine sum3_err (two_zpow_pos _).le ru.1 rv.1 rw'.1 k0 l0 m0 ek el em (t := t) ?_ ?_
  · rw [hT]; exact rel_rnd_add ru.2.2 rv.2.2
  · rw [hS]; exact rel_rnd_add rt.2.2 rw'.2.2

theorem sqrt_err {S : F64} (hS : NonNeg S) {s : Bool} {D : ℚ} (h : Scalar.sqrt S = .fin s D) :
    ∃ m : ℚ, S = .fin false m ∧ 0 ≤ m ∧ 0 ≤ D ∧ |D * D - m| ≤ 10 * 2 ^ (-55 : ℤ) * m := by
  change F64.sqrt S = _ at h
  rcases hS with rfl | ⟨m, rfl, hm⟩
  · simp [F64.sqrt] at h
  · refine ⟨m, rfl, hm.1, ?_⟩
    rcases hm.1.eq_or_lt with h0 | h0
    · subst h0
      have : D = 0 := by simp [F64.sqrt] at h; exact h.2.symm
      subst this; simp
    · rw [sqrt_fin_pos h0, round_eq] at h
      split_ifs at h
      have hD : D = sqrtVal m := (F64.fin.inj h).2.symm
      rw [hD]
      exact ⟨rnd_nonneg _, sqrtVal_sq_near h0 hm.2.2⟩

/-- the error of a computed length -/
theorem len_err {S : F64} (hS : NonNeg S) {M : ℝ}
    (hM : ∀ (s : Bool) (v : ℚ), S = .fin s v → ∃ w : ℚ, (w : ℝ) = M ∧ 0 ≤ w ∧ SumErr v w)
    {s : Bool} {D : ℚ} (h : Scalar.sqrt S = .fin s D) :
    |(D : ℝ) - √M| ≤ 2 ^ (-50 : ℤ) * √M + 2 ^ (-536 : ℤ) := by
  obtain ⟨v, hv, v0, hD0, hD⟩ := sqrt_err hS h
  obtain ⟨w, hw, w0, hw'⟩ := hM _ _ hv
  have := root_err (two_zpow_pos _).le w0 v0 hw' hD
  rw [← hw]
  refine length_err (η := 2 ^ (-1072 : ℤ)) (by exact_mod_cast w0) (by exact_mod_cast hD0) (by positivity) (by norm_num) (by positivity) ?_ ?_
  · rw [← zpow_add₀ two_ne_zero]; norm_num
  · have e : (8:ℚ) * 2 ^ (-1075 : ℤ) = 2 ^ (-1072 : ℤ) := by
      rw [show (8:ℚ) = 2 ^ (3:ℤ) by norm_num, ← zpow_add₀ two_ne_zero]; norm_num
    rw [e] at this
    have h2 : ((|D * D - w| : ℚ) : ℝ) ≤ ((2 ^ (-50 : ℤ) * w + 2 ^ (-1072 : ℤ) : ℚ) : ℝ) := by exact_mod_cast this
    push_cast at h2
    exact h2

/-! ### no overflow -/

theorem round_le {q b : ℚ} (hb : Dyad b) (hlt : b < 2 ^ (1024 : ℤ)) (h : q ≤ b) :
    ∃ m, round false q = .fin false m ∧ 0 ≤ m ∧ m ≤ b := by
  have : rnd q ≤ b := by have := rnd_mono h; rwa [rnd_exact hb] at this
  exact ⟨rnd q, by rw [round_eq, if_neg (not_le.2 (this.trans_lt hlt))], rnd_nonneg _, this⟩

theorem Near1.sq_le {a : F64} {r : ℝ} (h : Near1 a r) (hr : |r| ≤ 2 ^ (511 : ℤ)) :
    ∃ m : ℚ, a * a = .fin false m ∧ 0 ≤ m ∧ m ≤ 2 ^ (1022 : ℤ) := by
  obtain ⟨δ, h1, h2, h3, h4⟩ := h
  show ∃ m : ℚ, F64.mul a a = _ ∧ _
  rw [mul_self_abs, h3]
  rw [← h4] at hr
  have hδ : δ ≤ 2 ^ (511 : ℤ) := by exact_mod_cast hr
  obtain ⟨m, hm, m0, m1⟩ := round_le (dyad_pow2 (by norm_num)) (zpow_lt_zpow_right₀ one_lt_two (by norm_num)) hδ
  rw [hm]
  simp only [F64.mul, Bool.xor_self]
  refine round_le (dyad_pow2 (by norm_num)) (zpow_lt_zpow_right₀ one_lt_two (by norm_num)) ?_
  have := mul_le_mul m1 m1 m0 (two_zpow_pos _).le
  rwa [← zpow_add₀ two_ne_zero, show (511:ℤ) + 511 = 1022 by norm_num] at this

theorem add_le {m n b : ℚ} (hm : 0 ≤ m) (hn : 0 ≤ n) (hb : Dyad b) (hlt : b < 2 ^ (1024 : ℤ)) (h : m + n ≤ b) :
    ∃ k, (F64.fin false m + F64.fin false n) = .fin false k ∧ 0 ≤ k ∧ k ≤ b := by
  show ∃ k, F64.add _ _ = _ ∧ _
  simp only [F64.add, val, Bool.false_eq_true, if_false]
  split_ifs with h1
  · exact ⟨0, by simp, le_rfl, (add_nonneg hm hn).trans h⟩
  · unfold ofRat
    rw [if_neg (not_lt.2 (add_nonneg hm hn))]
    exact round_le hb hlt h

theorem sumsq2_fin {a b : F64} {x y : ℝ} (ha : Near1 a x) (hb : Near1 b y) (hx : |x| ≤ 2 ^ (511 : ℤ)) (hy : |y| ≤ 2 ^ (511 : ℤ)) :
    ∃ m : ℚ, a * a + b * b = .fin false m ∧ 0 ≤ m ∧ m ≤ 2 ^ (1023 : ℤ) := by
  obtain ⟨m, hm, m0, m1⟩ := ha.sq_le hx
  obtain ⟨n, hn, n0, n1⟩ := hb.sq_le hy
  rw [hm, hn]
  refine add_le m0 n0 (dyad_pow2 (by norm_num)) (zpow_lt_zpow_right₀ one_lt_two (by norm_num)) ?_
  have : (2:ℚ) ^ (1022 : ℤ) + 2 ^ (1022 : ℤ) = 2 ^ (1023 : ℤ) := by
    rw [show (1023:ℤ) = 1022 + 1 by norm_num, zpow_add_one₀ two_ne_zero]; ring
  rw [← this]
  exact add_le_add m1 n1

theorem sumsq3_fin {a b c : F64} {x y z : ℝ} (ha : Near1 a x) (hb : Near1 b y) (hc : Near1 c z)
    (hx : |x| ≤ 2 ^ (511 : ℤ)) (hy : |y| ≤ 2 ^ (511 : ℤ)) (hz : |z| ≤ 2 ^ (511 : ℤ)) :
    ∃ m : ℚ, a * a + b * b + c * c = .fin false m ∧ 0 ≤ m ∧ m ≤ 3 * 2 ^ (1022 : ℤ) := by
  obtain ⟨m, hm, m0, m1⟩ := sumsq2_fin ha hb hx hy
  obtain ⟨n, hn, n0, n1⟩ := hc.sq_le hz
  rw [hm, hn]
  have e1 : (2:ℚ) ^ (1023 : ℤ) = 2 * 2 ^ (1022 : ℤ) := by
    rw [show (1023:ℤ) = 1022 + 1 by norm_num, zpow_add_one₀ two_ne_zero]; ring
  have e2 : (2:ℚ) ^ (1024 : ℤ) = 4 * 2 ^ (1022 : ℤ) := by
    rw [show (1024:ℤ) = 1022 + 2 by norm_num, zpow_add₀ two_ne_zero, mul_comm]; norm_num
  have hp := two_zpow_pos 1022
  refine add_le m0 n0 ⟨3, 1022, by norm_num, by norm_num, by norm_num⟩ ?_ ?_
  · rw [e2]; push_cast; exact mul_lt_mul_of_pos_right (by norm_num) hp
  · rw [e1] at m1
    refine (add_le_add m1 n1).trans (le_of_eq ?_)
    ring

theorem sqrt_fin {m : ℚ} (h0 : 0 ≤ m) (h : m < 2 ^ (1024 : ℤ)) : ∃ D : ℚ, Scalar.sqrt (F64.fin false m) = .fin false D := by
  show ∃ D, F64.sqrt _ = _
  rcases h0.eq_or_lt with h1 | h1
  · subst h1; exact ⟨0, rfl⟩
  · rw [sqrt_fin_pos h1]
    have h2 := (sqrtArg_pos_bounds h1).2
    have h3 : hlog m ≤ 511 := by
      have := (ilog2_spec h1).1.trans_lt h
      rw [zpow_lt_zpow_iff_right₀ one_lt_two] at this
      unfold hlog; omega
    have h4 : sqrtArg m ≤ 2 ^ (512 : ℤ) := h2.le.trans (zpow_le_zpow_right₀ one_le_two (by omega))
    obtain ⟨D, hD, -⟩ := round_le (dyad_pow2 (by norm_num)) (zpow_lt_zpow_right₀ one_lt_two (by norm_num)) h4
    exact ⟨D, hD⟩

/-! ### the larger number -/

theorem key_max2 {a b : F64} (ha : ok a) (hb : ok b) : ok (Scalar.max2 a b) ∧ key (Scalar.max2 a b) = max (key a) (key b) := by
  have h : (Scalar.lt b a) = true ↔ key b < key a := LawfulScalar.lt_of_ok (α := F64) hb ha
  unfold Scalar.max2
  split_ifs with hc
  · exact ⟨ha, (max_eq_left (h.1 hc).le).symm⟩
  · exact ⟨hb, (max_eq_right (not_lt.1 (mt h.2 hc))).symm⟩

theorem NonNeg.ext {a b : F64} (ha : NonNeg a) (hb : NonNeg b) (h : F64.key a = F64.key b) : a = b := by
  rcases ha with rfl | ⟨m, rfl, -⟩ <;> rcases hb with rfl | ⟨n, rfl, -⟩
  · rfl
  · rw [key_inf_false, key_fin_false] at h; simp at h
  · rw [key_inf_false, key_fin_false] at h; simp at h
  · rw [key_fin_false, key_fin_false] at h
    have : (m:ℝ) = (n:ℝ) := by exact_mod_cast h
    have : m = n := by exact_mod_cast this
    rw [this]

theorem key_abs_of_nonneg {a : F64} (hr : Rep a) (h : 0 ≤ key a) : key (F64.abs a) = key a := by
  match a, hr, h with
  | .nan, _, _ => rfl
  | .inf false, _, _ => rfl
  | .inf true, _, h => simp [key] at h
  | .fin false m, _, _ => rfl
  | .fin true m, hr, h =>
    have e : key (.fin true m) = (((-m : ℚ) : ℝ) : EReal) := by simp [key, val]
    rw [e] at h
    have h1 : (0:ℝ) ≤ ((-m : ℚ) : ℝ) := by exact_mod_cast h
    have h2 : (0:ℚ) ≤ -m := by exact_mod_cast h1
    have h3 : m = 0 := le_antisymm (by linarith) hr.1
    subst h3
    simp [F64.abs, key, val]

theorem key_sub_rkey {a b : F64} (ha : Num a) (hb : Num b) : ∃ x y : ℚ, Mult x ∧ Mult y ∧ (x : ℝ) = toR a ∧ (y : ℝ) = toR b ∧
    key (a - b) = rkey (x - y) ∧ Rep (a - b) := by
  obtain ⟨⟨s, m, rfl⟩, r⟩ := ha
  obtain ⟨⟨t, n, rfl⟩, r'⟩ := hb
  exact ⟨_, _, val_mult r.2.2, val_mult r'.2.2, (real_fin _ _).symm, (real_fin _ _).symm, key_sub s t m n, sub_rep _ _⟩

theorem rkey_of_nonneg {q : ℚ} (h : 0 ≤ q) : rkey q = key (round false q) := by
  unfold rkey ofRat; rw [if_neg (not_lt.2 h)]

theorem max2_rep {a b : F64} (ha : Rep a) (hb : Rep b) : Rep (Scalar.max2 a b) := by
  unfold Scalar.max2; split_ifs <;> assumption

/-- the distance from an interval, one dimension -/
theorem near_max3 {l p h : F64} (hl : Num l) (hp : Num p) (hh : Num h) :
    Near1 (Scalar.max3 (l - p) Scalar.zero (p - h)) (max (max (toR l - toR p) 0) (toR p - toR h)) := by
  have o1 := ok_sub_fin hl.1 hp.1
  have o2 := ok_sub_fin hp.1 hh.1
  have z : (Scalar.zero : F64) = .fin false 0 := by decide +kernel
  have kz : key (Scalar.zero : F64) = rkey 0 := by rw [rkey_zero, z]; simp [key, val]
  have oz : ok (Scalar.zero : F64) := by rw [z]; exact F64.noConfusion
  have rz : Rep (Scalar.zero : F64) := by rw [z]; exact fin_zero_rep _
  obtain ⟨l1, p1, ml, mp, el, ep, k1, r1⟩ := key_sub_rkey hl hp
  obtain ⟨p2, h2, mp2, mh, ep2, eh, k2, r2⟩ := key_sub_rkey hp hh
  have e : p2 = p1 := by have : (p2:ℝ) = (p1:ℝ) := by rw [ep, ep2]
                         exact_mod_cast this
  subst e
  obtain ⟨ow, kw⟩ := key_max2 o1 oz
  obtain ⟨ov, kv⟩ := key_max2 ow o2
  have rm : Rep (Scalar.max3 (l - p) Scalar.zero (p - h)) := max2_rep (max2_rep r1 rz) r2
  have mono : Monotone rkey := fun _ _ h => rkey_mono h
  have kk : key (Scalar.max3 (l - p) Scalar.zero (p - h)) = rkey (max (max (l1 - p2) 0) (p2 - h2)) := by
    rw [mono.map_max, mono.map_max, ← k1, ← k2, ← kz]
    unfold Scalar.max3
    rw [kv, kw]
  have h0 : 0 ≤ max (max (l1 - p2) 0) (p2 - h2) := (le_max_right _ _).trans (le_max_left _ _)
  refine ⟨max (max (l1 - p2) 0) (p2 - h2), h0, ((ml.sub mp).max Mult.zero).max (mp.sub mh), ?_, ?_⟩
  · have hk : 0 ≤ key (Scalar.max3 (l - p) Scalar.zero (p - h)) := by
      rw [kk, rkey_of_nonneg h0]; exact key_round_nonneg _
    apply NonNeg.ext
    · have ho : ok (Scalar.max3 (l - p) Scalar.zero (p - h)) := ov
      revert rm ho
      generalize Scalar.max3 (l - p) Scalar.zero (p - h) = v
      intro rm ho
      cases v with
      | nan => exact absurd rfl ho
      | inf s => exact .inl rfl
      | fin s m => exact .inr ⟨m, rfl, rm⟩
    · exact round_nonNeg _
    · rw [key_abs_of_nonneg rm hk, kk, rkey_of_nonneg h0]
  · rw [abs_of_nonneg ((le_max_right _ _).trans (le_max_left _ _)), ← el, ← ep, ← eh]
    push_cast; rfl

/-- the gap between two intervals -/
theorem near_gap {a b c d : F64} (ha : Num a) (hb : Num b) (hc : Num c) (hd : Num d) :
    Near1 (BoundingBox2D.gap a b c d) (BoundingBox2D.gap (toR a) (toR b) (toR c) (toR d)) := by
  have e1 : (Scalar.lt d a = true) ↔ toR d < toR a := by
    rw [LawfulScalar.lt_of_ok (α := F64) hd.ok ha.ok]
    show F64.key d < F64.key a ↔ _
    rw [hd.key, ha.key, EReal.coe_lt_coe_iff]
  have e2 : (Scalar.lt b c = true) ↔ toR b < toR c := by
    rw [LawfulScalar.lt_of_ok (α := F64) hb.ok hc.ok]
    show F64.key b < F64.key c ↔ _
    rw [hb.key, hc.key, EReal.coe_lt_coe_iff]
  unfold BoundingBox2D.gap
  simp only [Real.scalar_lt, decide_eq_true_eq]
  by_cases h1 : toR d < toR a
  · rw [if_pos (e1.2 h1), if_pos h1]; exact near_sub hd ha
  · rw [if_neg (mt e1.1 h1), if_neg h1]
    by_cases h2 : toR b < toR c
    · rw [if_pos (e2.2 h2), if_pos h2]; exact near_sub hc hb
    · rw [if_neg (mt e2.1 h2), if_neg h2]
      have z : (Scalar.zero : F64) = .fin false 0 := by decide +kernel
      rw [z, Real.scalar_zero]
      exact near_zero _

end F64
end R3D
