import Verif.Lemmas.F64Op
/-!
One dimension of a box of doubles: size, center, collision.
-/
namespace R3D
namespace F64

theorem lit_num (q : ℚ) (s : Bool) (m : ℚ) (h : (Scalar.lit q : F64) = .fin s m) : Num (Scalar.lit q : F64) := by
  have : Rep (Scalar.lit q : F64) := ofRat_rep q
  rw [h] at this ⊢
  exact Num.mk' this

theorem lit_two : (Scalar.lit 2 : F64) = .fin false 2 := by decide +kernel

theorem num_two : Num (Scalar.lit 2 : F64) := lit_num 2 _ _ lit_two

theorem toR_two : toR (Scalar.lit 2 : F64) = 2 := by
  rw [lit_two, real_fin]; simp [val]

theorem num_zero : Num (Scalar.zero : F64) := by
  have : (Scalar.zero : F64) = .fin false 0 := by decide +kernel
  rw [this]; exact Num.mk' (fin_zero_rep _)

theorem toR_zero : toR (Scalar.zero : F64) = 0 := by
  have : (Scalar.zero : F64) = .fin false 0 := by decide +kernel
  rw [this, real_fin]; simp [val]

/-- halving rounds only among the smallest numbers, by half the smallest positive number -/
theorem rnd_half {m : ℚ} (h : Dyad m) : |rnd (m / 2) - m / 2| ≤ 2 ^ (-1075 : ℤ) := by
  obtain ⟨k, e, hk, he, rfl⟩ := h
  by_cases h1 : -1073 ≤ e
  · have : Dyad ((k:ℚ) * 2 ^ e / 2) := ⟨k, e - 1, hk, by omega, by rw [zpow_sub_one₀ two_ne_zero]; ring⟩
    rw [rnd_exact this, sub_self, abs_zero]
    exact (two_zpow_pos _).le
  · have he : e = -1074 := by omega
    subst he
    rcases Nat.eq_zero_or_pos k with rfl | hpos
    · simp [rnd]
    · have hq : (0:ℚ) < k * 2 ^ (-1074 : ℤ) / 2 := by
        have : (0:ℚ) < k := by exact_mod_cast hpos
        have := two_zpow_pos (-1074)
        positivity
      have hlt : (k:ℚ) * 2 ^ (-1074 : ℤ) / 2 < 2 ^ (-1022 : ℤ) := by
        have : (k:ℚ) < 2 ^ 53 := by exact_mod_cast hk
        have h2 : (2:ℚ) ^ (-1022 : ℤ) = 2 ^ 53 * 2 ^ (-1074 : ℤ) / 2 := by
          rw [show (-1022 : ℤ) = 53 + (-1074) + (-1) by norm_num, zpow_add₀ two_ne_zero, zpow_add₀ two_ne_zero, zpow_neg_one]
          norm_cast
        rw [h2]
        have := two_zpow_pos (-1074)
        nlinarith
      have hl : lsb ((k:ℚ) * 2 ^ (-1074 : ℤ) / 2) = -1074 := by
        have h3 := (ilog2_spec hq).1.trans_lt hlt
        have := (zpow_lt_zpow_iff_right₀ (one_lt_two : (1:ℚ) < 2)).1 h3
        unfold lsb
        omega
      unfold rnd
      rw [if_neg (not_le.2 hq), hl]
      generalize (k:ℚ) * 2 ^ (-1074 : ℤ) / 2 = q
      have h4 := roundEven_near (q * 2 ^ (-(-1074 : ℤ)))
      have h5 : (2:ℚ) ^ (-(-1074 : ℤ)) * 2 ^ (-1074 : ℤ) = 1 := by rw [← zpow_add₀ two_ne_zero]; norm_num
      have h6 : (roundEven (q * 2 ^ (-(-1074 : ℤ))) : ℚ) * 2 ^ (-1074 : ℤ) - q =
          ((roundEven (q * 2 ^ (-(-1074 : ℤ))) : ℚ) - q * 2 ^ (-(-1074 : ℤ))) * 2 ^ (-1074 : ℤ) := by
        rw [sub_mul, mul_assoc, h5, mul_one]
      rw [h6, abs_mul, abs_of_pos (two_zpow_pos (-1074))]
      have h7 : (2:ℚ) ^ (-1075 : ℤ) = 1 / 2 * 2 ^ (-1074 : ℤ) := by
        rw [show (-1075 : ℤ) = -1 + -1074 by norm_num, zpow_add₀ two_ne_zero, zpow_neg_one]; norm_num
      rw [h7]
      exact mul_le_mul_of_nonneg_right h4 (two_zpow_pos _).le

theorem toR_half {a : F64} (ha : Num a) : Num (a / Scalar.lit 2) ∧ |toR (a / Scalar.lit 2) - toR a / 2| ≤ 2 ^ (-1075 : ℤ) := by
  obtain ⟨s, m, rfl, r, hm, e1⟩ := ha.form
  rw [lit_two]
  show Num (F64.div _ _) ∧ |toR (F64.div _ _) - _| ≤ _
  simp only [F64.div]
  rw [if_neg (by norm_num), Bool.xor_false]
  have hq : m / 2 ≤ 2 ^ (1023 : ℤ) := by
    have h1 := r.2.1
    rw [show (1024:ℤ) = 1 + 1023 by norm_num, zpow_add₀ two_ne_zero, zpow_one] at h1
    linarith
  have hr := round_rep s (m / 2)
  rw [round_fin _ hq] at hr ⊢
  refine ⟨Num.mk' hr, ?_⟩
  rw [e1, real_fin]
  have : |val s (rnd (m / 2)) - val s m / 2| ≤ 2 ^ (-1075 : ℤ) := by
    have h := rnd_half r.2.2
    cases s
    · exact h
    · simp only [val, if_true]
      rw [← abs_neg]; convert h using 2; ring
  have h3 := (Rat.cast_le (K := ℝ)).2 this
  simpa only [Rat.cast_sub, Rat.cast_div, Rat.cast_abs, Rat.cast_zpow, Rat.cast_ofNat] using h3

/-- multiples of the smallest positive number, as real numbers -/
def MultR (x : ℝ) : Prop := ∃ k : ℤ, x = k * (2:ℝ) ^ (-1074 : ℤ)

theorem Num.multR {a : F64} (h : Num a) : MultR (toR a) := by
  obtain ⟨s, m, rfl, r, ⟨k, hk⟩, e⟩ := h.form
  exact ⟨k, by rw [e, hk]; push_cast; rfl⟩

theorem MultR.sub {x y : ℝ} (hx : MultR x) (hy : MultR y) : MultR (x - y) := by
  obtain ⟨k, rfl⟩ := hx
  obtain ⟨l, rfl⟩ := hy
  exact ⟨k - l, by push_cast; ring⟩

theorem MultR.neg {x : ℝ} (hx : MultR x) : MultR (-x) := by
  obtain ⟨k, rfl⟩ := hx
  exact ⟨-k, by push_cast; ring⟩

theorem eta_pos : (0:ℝ) < 2 ^ (-1074 : ℤ) := zpow_pos two_pos _

theorem eta_half : (2:ℝ) ^ (-1075 : ℤ) = 2 ^ (-1074 : ℤ) / 2 := by
  rw [show (-1075 : ℤ) = -1 + -1074 by norm_num, zpow_add₀ two_ne_zero, zpow_neg_one]; ring

/-- multiples that do not exceed by the smallest positive number do not exceed -/
theorem MultR.le_of_lt {x y : ℝ} (hx : MultR x) (hy : MultR y) (h : x < y + 2 ^ (-1074 : ℤ)) : x ≤ y := by
  obtain ⟨k, rfl⟩ := hx
  obtain ⟨l, rfl⟩ := hy
  have h1 : (k : ℝ) < l + 1 := by
    by_contra hc
    have := eta_pos
    nlinarith
  have h2 : k < l + 1 := by exact_mod_cast h1
  have h3 : (k : ℝ) ≤ l := by exact_mod_cast Int.lt_add_one_iff.1 h2
  exact mul_le_mul_of_nonneg_right h3 eta_pos.le

theorem MultR.le_of_pos {x : ℝ} (hx : MultR x) (h : 0 < x) : 2 ^ (-1074 : ℤ) ≤ x := by
  by_contra hc
  have := hx.le_of_lt (y := 0) ⟨0, by simp⟩ (by linarith)
  linarith

/-- a multiple up to half a double is up to the computed half -/
theorem le_half {a : F64} (ha : Num a) {x : ℝ} (hx : MultR x) (h : x ≤ toR a / 2) : x ≤ toR (a / Scalar.lit 2) := by
  obtain ⟨h1, h2⟩ := toR_half ha
  have := eta_half
  have := eta_pos
  refine hx.le_of_lt h1.multR ?_
  have := (abs_le.1 h2).1
  linarith

/-- the unit of rounding -/
theorem u_pos : (0:ℝ) < 2 ^ (-53 : ℤ) := zpow_pos two_pos _
theorem u_small : (2:ℝ) ^ (-53 : ℤ) = 1 / 9007199254740992 := by norm_num

/-- size of a box in one dimension -/
theorem size1 {l h : F64} (hl : Num l) (hh : Num h) (hlt : toR l < toR h) (hb : toR h - toR l ≤ 2 ^ (1023 : ℤ)) :
    Num (Scalar.abs (h - l)) ∧ 0 < toR (Scalar.abs (h - l)) ∧
      |toR (Scalar.abs (h - l)) - (toR h - toR l)| ≤ 2 ^ (-53 : ℤ) * (toR h - toR l) := by
  have hp : 0 < toR h - toR l := sub_pos.2 hlt
  obtain ⟨h1, h2⟩ := toR_sub hh hl (by rwa [abs_of_pos hp])
  rw [abs_of_pos hp] at h2
  have h3 := key_sub_pos_of_lt hl hh hlt
  rw [h1.key] at h3
  have h4 : 0 < toR (h - l) := by exact_mod_cast h3
  rw [toR_abs h1, abs_of_pos h4]
  exact ⟨h1.abs, h4, h2⟩

/-- sums that do not overflow: relative error of one rounding -/
theorem toR_add_of_num {a b : F64} (ha : Num a) (hb : Num b) (kn : Num (a + b)) :
    |toR (a + b) - (toR a + toR b)| ≤ 2 ^ (-53 : ℤ) * |toR a + toR b| := by
  obtain ⟨s, m, rfl, r, hm, q1⟩ := ha.form
  obtain ⟨t, n, rfl, r', hn, q2⟩ := hb.form
  by_cases hz : val s m + val t n = 0
  · have : F64.fin s m + F64.fin t n = .fin (s && t) 0 := by
      show F64.add _ _ = _
      simp only [F64.add]
      rw [if_pos hz]
    rw [this, q1, q2, real_fin]
    have hz' : ((val s m : ℚ) : ℝ) + ((val t n : ℚ) : ℝ) = 0 := by exact_mod_cast hz
    rw [hz']; simp [val]
  · have he : F64.fin s m + F64.fin t n = ofRat (val s m + val t n) := by
      show F64.add _ _ = _
      simp only [F64.add]
      rw [if_neg hz]
    rw [he] at kn ⊢
    rw [q1, q2]
    have hrel := (hm.add hn).abs.rel (abs_nonneg _)
    have hval : toR (ofRat (val s m + val t n)) =
        if val s m + val t n < 0 then -((rnd |val s m + val t n| : ℚ) : ℝ) else ((rnd |val s m + val t n| : ℚ) : ℝ) := by
      obtain ⟨s', m', q3, -, -, q4⟩ := kn.form
      unfold ofRat at q3 ⊢
      split_ifs with hc
      · rw [if_pos hc, round_eq] at q3
        rw [abs_of_neg hc, round_eq]
        split_ifs at q3 ⊢ with hov
        rw [real_fin]; simp [val]
      · rw [if_neg hc, round_eq] at q3
        rw [abs_of_nonneg (not_lt.1 hc), round_eq]
        split_ifs at q3 ⊢ with hov
        rw [real_fin]; simp [val]
    rw [hval]
    have h9 : |(((rnd |val s m + val t n| : ℚ) : ℝ) - |((val s m : ℚ) : ℝ) + ((val t n : ℚ) : ℝ)|)| ≤
        2 ^ (-53 : ℤ) * |((val s m : ℚ) : ℝ) + ((val t n : ℚ) : ℝ)| := by
      have h3 := (Rat.cast_le (K := ℝ)).2 hrel
      simpa only [Rat.cast_sub, Rat.cast_add, Rat.cast_mul, Rat.cast_abs, Rat.cast_zpow, Rat.cast_ofNat] using h3
    split_ifs with hc
    · have hc' : ((val s m : ℚ) : ℝ) + ((val t n : ℚ) : ℝ) < 0 := by exact_mod_cast hc
      refine le_trans (le_of_eq ?_) h9
      rw [abs_of_neg hc', ← abs_neg]; congr 1; ring
    · have hc' : 0 ≤ ((val s m : ℚ) : ℝ) + ((val t n : ℚ) : ℝ) := by exact_mod_cast not_lt.1 hc
      refine le_trans (le_of_eq ?_) h9
      rw [abs_of_nonneg hc']

theorem toR_sub_of_num {a b : F64} (ha : Num a) (hb : Num b) (kn : Num (a - b)) :
    |toR (a - b) - (toR a - toR b)| ≤ 2 ^ (-53 : ℤ) * |toR a - toR b| := by
  have := toR_add_of_num ha hb.neg kn
  rwa [toR_neg hb, ← sub_eq_add_neg] at this

/-- center of a box in one dimension: between the borders, and close to the exact one -/
theorem center1 {l h : F64} (hl : Num l) (hh : Num h) (hlt : toR l < toR h) (hb : toR h - toR l ≤ 2 ^ (1023 : ℤ)) :
    Num (l + (h - l) / Scalar.lit 2) ∧ toR l ≤ toR (l + (h - l) / Scalar.lit 2) ∧ toR (l + (h - l) / Scalar.lit 2) ≤ toR h ∧
      |toR (l + (h - l) / Scalar.lit 2) - (toR l + toR h) / 2| ≤
        2 ^ (-53 : ℤ) * (toR h - toR l) / 2 + 2 ^ (-1075 : ℤ) + 2 ^ (-53 : ℤ) * max |toR l| |toR h| := by
  have hp : 0 < toR h - toR l := sub_pos.2 hlt
  obtain ⟨d1, d2⟩ := toR_sub hh hl (by rwa [abs_of_pos hp])
  rw [abs_of_pos hp] at d2
  have h3 := key_sub_pos_of_lt hl hh hlt
  rw [d1.key] at h3
  have d0 : 0 < toR (h - l) := by exact_mod_cast h3
  obtain ⟨e1, e2⟩ := toR_half d1
  generalize h - l = d at *
  generalize d / Scalar.lit 2 = e at *
  have hη := eta_half
  have hη0 := eta_pos
  have hu := u_small
  have hmin : 2 ^ (-1074 : ℤ) ≤ toR h - toR l := (hh.multR.sub hl.multR).le_of_pos hp
  rw [abs_le] at d2 e2
  have e0 : 0 ≤ toR e := by
    refine MultR.le_of_lt ⟨0, by simp⟩ e1.multR ?_
    linarith [e2.1]
  have eh : toR e ≤ toR h - toR l := by
    refine e1.multR.le_of_lt (hh.multR.sub hl.multR) ?_
    rw [hu] at d2
    linarith [e2.2, d2.2]
  have hle : |toR l + toR e| ≤ max |toR l| |toR h| := by
    rw [abs_le]
    constructor
    · have := neg_abs_le (toR l)
      have := le_max_left |toR l| |toR h|
      linarith
    · have := le_abs_self (toR h)
      have := le_max_right |toR l| |toR h|
      linarith
  have k1 := le_key_add hl e1 hl (by linarith)
  have k2 := key_add_le hl e1 hh (by linarith)
  have kn : Num (l + e) := num_of_bounded (add_rep _ _) (ok_add_num hl e1) (by rw [← hl.key]; exact k1) (by rw [← hh.key]; exact k2)
  rw [kn.key, hl.key, EReal.coe_le_coe_iff] at k1
  rw [kn.key, hh.key, EReal.coe_le_coe_iff] at k2
  refine ⟨kn, k1, k2, ?_⟩
  have herr := toR_add_of_num hl e1 kn
  have herr2 : |toR (l + e) - (toR l + toR e)| ≤ 2 ^ (-53 : ℤ) * max |toR l| |toR h| :=
    herr.trans (mul_le_mul_of_nonneg_left hle u_pos.le)
  rw [abs_le] at herr2 ⊢
  clear hη hη0 hu hmin
  generalize (2:ℝ) ^ (-53 : ℤ) = u at *
  generalize (2:ℝ) ^ (-1075 : ℤ) = w at *
  generalize u * max |toR l| |toR h| = v at *
  constructor <;> linarith [herr2.1, herr2.2, e2.1, e2.2, d2.1, d2.2]

/-- one dimension of `collides_with`: right if the overlap or the gap exceeds `2^-49` of the largest coordinate -/
theorem collide1 {l h l' h' : F64} (hl : Num l) (hh : Num h) (hl' : Num l') (hh' : Num h') (hlt : toR l < toR h)
    (hlt' : toR l' < toR h') {M : ℝ} (hM : 2 ^ (-1000 : ℤ) ≤ M) (hM' : M ≤ 2 ^ (1020 : ℤ))
    (bl : |toR l| ≤ M) (bh : |toR h| ≤ M) (bl' : |toR l'| ≤ M) (bh' : |toR h'| ≤ M) :
    (toR l + 2 ^ (-49 : ℤ) * M ≤ toR h' → toR l' + 2 ^ (-49 : ℤ) * M ≤ toR h →
      Scalar.lt (Scalar.lit 2 * Scalar.abs (l + (h - l) / Scalar.lit 2 - (l' + (h' - l') / Scalar.lit 2)))
        (Scalar.abs (h - l) + Scalar.abs (h' - l')) = true) ∧
    (toR h' + 2 ^ (-49 : ℤ) * M ≤ toR l ∨ toR h + 2 ^ (-49 : ℤ) * M ≤ toR l' →
      Scalar.lt (Scalar.lit 2 * Scalar.abs (l + (h - l) / Scalar.lit 2 - (l' + (h' - l') / Scalar.lit 2)))
        (Scalar.abs (h - l) + Scalar.abs (h' - l')) = false) := by
  have hM0 : 0 < M := lt_of_lt_of_le (zpow_pos two_pos _) hM
  have big : 8 * M ≤ 2 ^ (1023 : ℤ) := by
    have : (2:ℝ) ^ (1023 : ℤ) = 8 * 2 ^ (1020 : ℤ) := by
      rw [show (1023 : ℤ) = 3 + 1020 by norm_num, zpow_add₀ two_ne_zero]; norm_num
    rw [this]; exact mul_le_mul_of_nonneg_left hM' (by norm_num)
  have small : 2 ^ (-1074 : ℤ) * 1000 ≤ 2 ^ (-53 : ℤ) * M := by
    have h1 : (2:ℝ) ^ (-1074 : ℤ) * 1000 ≤ 2 ^ (-53 : ℤ) * 2 ^ (-1000 : ℤ) := by
      rw [← zpow_add₀ two_ne_zero, show (-53 : ℤ) + -1000 = 21 + -1074 by norm_num, zpow_add₀ two_ne_zero]
      have := eta_pos
      generalize (2:ℝ) ^ (-1074 : ℤ) = η at *
      norm_num
      linarith
    exact h1.trans (mul_le_mul_of_nonneg_left hM u_pos.le)
  have hη := eta_half
  have hη0 := eta_pos
  have hτ : (2:ℝ) ^ (-49 : ℤ) = 16 * 2 ^ (-53 : ℤ) := by norm_num
  have hu := u_small
  obtain ⟨bl1, bl2⟩ := abs_le.1 bl
  obtain ⟨bh1, bh2⟩ := abs_le.1 bh
  obtain ⟨bl1', bl2'⟩ := abs_le.1 bl'
  obtain ⟨bh1', bh2'⟩ := abs_le.1 bh'
  have hlh : toR h - toR l ≤ 8 * M := by linarith only [bl1, bh2, hM0]
  have hlh' : toR h' - toR l' ≤ 8 * M := by linarith only [bl1', bh2', hM0]
  obtain ⟨s1, s2, s3⟩ := size1 hl hh hlt (hlh.trans big)
  obtain ⟨t1, t2, t3⟩ := size1 hl' hh' hlt' (hlh'.trans big)
  obtain ⟨c1, c2, c3, c4⟩ := center1 hl hh hlt (hlh.trans big)
  obtain ⟨k1, k2, k3, k4⟩ := center1 hl' hh' hlt' (hlh'.trans big)
  have m1 : max |toR l| |toR h| ≤ M := max_le bl bh
  have m2 : max |toR l'| |toR h'| ≤ M := max_le bl' bh'
  generalize l + (h - l) / Scalar.lit 2 = c at *
  generalize l' + (h' - l') / Scalar.lit 2 = k at *
  generalize Scalar.abs (h - l) = s at *
  generalize Scalar.abs (h' - l') = t at *
  have hck : |toR c - toR k| ≤ 2 * M := by rw [abs_le]; constructor <;> linarith
  obtain ⟨d1, d2⟩ := toR_sub c1 k1 ((hck.trans (by linarith only [hM0])).trans big)
  have hd : |toR (c - k)| ≤ 2 * M + 2 ^ (-53 : ℤ) * (2 * M) := by
    have h1 : |toR (c - k)| ≤ |toR (c - k) - (toR c - toR k)| + |toR c - toR k| := by
      have := abs_add_le (toR (c - k) - (toR c - toR k)) (toR c - toR k)
      rwa [sub_add_cancel] at this
    have h2 := mul_le_mul_of_nonneg_left hck u_pos.le
    linarith
  have hprod : |toR (Scalar.lit 2 : F64) * toR (Scalar.abs (c - k))| = 2 * |toR (c - k)| := by
    rw [toR_two, toR_abs d1, abs_mul, abs_abs]; norm_num
  obtain ⟨p1, p2⟩ := toR_mul num_two (d1.abs) (by
    show |toR (Scalar.lit 2 : F64) * toR (Scalar.abs (c - k))| ≤ _
    rw [hprod]
    rw [hu] at hd
    exact le_trans (by linarith only [hd, hM0]) big)
  change |toR (Scalar.lit 2 * Scalar.abs (c - k)) - toR (Scalar.lit 2 : F64) * toR (Scalar.abs (c - k))| ≤
    2 ^ (-53 : ℤ) * |toR (Scalar.lit 2 : F64) * toR (Scalar.abs (c - k))| + 2 ^ (-1075 : ℤ) at p2
  change Num (Scalar.lit 2 * Scalar.abs (c - k)) at p1
  rw [hprod, toR_two, toR_abs d1] at p2
  have hs : toR s ≤ 2 * M + 2 ^ (-53 : ℤ) * (2 * M) := by
    have := (abs_le.1 s3).2
    have h2 : 2 ^ (-53 : ℤ) * (toR h - toR l) ≤ 2 ^ (-53 : ℤ) * (2 * M) := mul_le_mul_of_nonneg_left (by linarith) u_pos.le
    linarith
  have ht : toR t ≤ 2 * M + 2 ^ (-53 : ℤ) * (2 * M) := by
    have := (abs_le.1 t3).2
    have h2 : 2 ^ (-53 : ℤ) * (toR h' - toR l') ≤ 2 ^ (-53 : ℤ) * (2 * M) := mul_le_mul_of_nonneg_left (by linarith) u_pos.le
    linarith
  have hst : |toR s + toR t| = toR s + toR t := abs_of_pos (by linarith)
  obtain ⟨q1, q2⟩ := toR_add s1 t1 (by
    rw [hst]
    rw [hu] at hs ht
    exact le_trans (by linarith only [hs, ht, hM0]) big)
  rw [hst] at q2
  have e1 : 2 ^ (-53 : ℤ) * max |toR l| |toR h| ≤ 2 ^ (-53 : ℤ) * M := mul_le_mul_of_nonneg_left m1 u_pos.le
  have e2 : 2 ^ (-53 : ℤ) * max |toR l'| |toR h'| ≤ 2 ^ (-53 : ℤ) * M := mul_le_mul_of_nonneg_left m2 u_pos.le
  rw [Bool.eq_false_iff, ne_eq, num_lt p1 q1]
  generalize Scalar.lit 2 * Scalar.abs (c - k) = P at *
  generalize s + t = Q at *
  generalize toR (c - k) = D at *
  rw [hη] at c4 k4 p2
  rw [hτ]
  rw [hu] at small d2 hd p2 s3 t3 hs ht q2 e1 e2 c4 k4 ⊢
  generalize (2:ℝ) ^ (-1074 : ℤ) = η at *
  generalize 1 / 9007199254740992 * max |toR l| |toR h| = v1 at *
  generalize 1 / 9007199254740992 * max |toR l'| |toR h'| = v2 at *
  clear hη hτ hu big hM hM' hprod hst
  obtain ⟨s31, s32⟩ := abs_le.1 s3
  obtain ⟨t31, t32⟩ := abs_le.1 t3
  obtain ⟨q21, q22⟩ := abs_le.1 q2
  obtain ⟨c41, c42⟩ := abs_le.1 c4
  obtain ⟨k41, k42⟩ := abs_le.1 k4
  obtain ⟨p21, p22⟩ := abs_le.1 p2
  obtain ⟨d21, d22⟩ := abs_le.1 d2
  constructor
  · intro h1 h2
    rcases abs_cases D with ⟨hD, -⟩ | ⟨hD, -⟩ <;> rw [hD] at p22 hd <;> linarith
  · intro h1 hc
    have a1 := le_abs_self D
    have a2 := neg_abs_le D
    rcases h1 with h1 | h1 <;> linarith

end F64
end R3D
