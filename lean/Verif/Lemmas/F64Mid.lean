import Verif.Lemmas.F64Box
/-!
Rounding goes to the nearest double, differences of close doubles are exact, and the computed middle of an interval
with a double inside is inside.
-/
namespace R3D
namespace F64

theorem roundEven_closest (q : ℚ) (n : ℤ) : |(roundEven q : ℚ) - q| ≤ |(n : ℚ) - q| := by
  by_contra hc
  push Not at hc
  have h1 := roundEven_near q
  have h2 : |((roundEven q - n : ℤ) : ℚ)| < 1 := by
    push_cast
    calc |(roundEven q : ℚ) - n| = |((roundEven q : ℚ) - q) - (n - q)| := by congr 1; ring
      _ ≤ |(roundEven q : ℚ) - q| + |(n : ℚ) - q| := abs_sub _ _
      _ < 1 := by linarith
  have h3 : |roundEven q - n| < 1 := by exact_mod_cast h2
  have h4 : roundEven q = n := by rw [Int.abs_lt_one_iff] at h3; omega
  rw [h4] at hc
  exact lt_irrefl _ hc

/-- rounding goes to a nearest magnitude -/
theorem rnd_nearest {q y : ℚ} (hq : 0 ≤ q) (hy : Dyad y) : |rnd q - q| ≤ |y - q| := by
  rcases hq.eq_or_lt with rfl | hq
  · rw [rnd_of_nonpos le_rfl]; simp
  have grid : ∀ n : ℤ, |rnd q - q| ≤ |(n : ℚ) * 2 ^ lsb q - q| := by
    intro n
    rw [rnd, if_neg (not_le.2 hq)]
    have e : q = q * 2 ^ (-lsb q) * 2 ^ lsb q := by
      rw [mul_assoc, ← zpow_add₀ two_ne_zero]; simp
    generalize hT : (2:ℚ) ^ lsb q = T at *
    generalize q * 2 ^ (-lsb q) = t at *
    have hT0 : 0 < T := by rw [← hT]; exact two_zpow_pos _
    rw [e, ← sub_mul, ← sub_mul, abs_mul, abs_mul]
    exact mul_le_mul_of_nonneg_right (roundEven_closest t n) (abs_nonneg _)
  obtain ⟨m, e, hm, he, rfl⟩ := hy
  by_cases hl : lsb q ≤ e
  · obtain ⟨k, hk⟩ : ∃ k : ℕ, e = lsb q + k := ⟨(e - lsb q).toNat, by omega⟩
    have := grid (m * 2 ^ k)
    convert this using 3
    rw [hk, zpow_add₀ two_ne_zero, zpow_natCast]; push_cast; ring
  · have e1 : lsb q = ilog2 q - 52 := by unfold lsb at hl ⊢; omega
    have h1 := grid (2 ^ 52)
    have e2 : (((2 ^ 52 : ℤ)) : ℚ) * 2 ^ lsb q = 2 ^ ilog2 q := by
      have : ilog2 q = 52 + lsb q := by omega
      rw [this, zpow_add₀ two_ne_zero]; norm_num
    rw [e2] at h1
    have h2 := (ilog2_spec hq).1
    have h3 : (m : ℚ) * 2 ^ e ≤ 2 ^ ilog2 q := by
      have : (m : ℚ) ≤ 2 ^ (53 : ℤ) := by exact_mod_cast hm.le
      calc (m : ℚ) * 2 ^ e ≤ 2 ^ (53 : ℤ) * 2 ^ e := mul_le_mul_of_nonneg_right this (two_zpow_pos _).le
        _ = 2 ^ (53 + e) := by rw [zpow_add₀ two_ne_zero]
        _ ≤ _ := zpow_le_zpow_right₀ one_le_two (by omega)
    refine h1.trans ?_
    rw [abs_of_nonpos (by linarith), abs_of_nonpos (by linarith)]
    linarith

/-- the same for sums of doubles -/
theorem add_nearest {a b y : F64} (ha : Num a) (hb : Num b) (hy : Num y) (kn : Num (a + b)) :
    |toR (a + b) - (toR a + toR b)| ≤ |toR y - (toR a + toR b)| := by
  obtain ⟨s, m, rfl, r, hm, q1⟩ := ha.form
  obtain ⟨t, n, rfl, r', hn, q2⟩ := hb.form
  obtain ⟨t', y', rfl, r'', hy', q3⟩ := hy.form
  by_cases hz : val s m + val t n = 0
  · have : F64.fin s m + F64.fin t n = .fin (s && t) 0 := by
      show F64.add _ _ = _
      simp only [F64.add]
      rw [if_pos hz]
    rw [this, q1, q2, real_fin]
    have hz' : ((val s m : ℚ) : ℝ) + ((val t n : ℚ) : ℝ) = 0 := by exact_mod_cast hz
    rw [hz']; simp [val]
  · have he : F64.fin s m + F64.fin t n = ofRat (val s m + val t n) := by
      show F64.add _ _ = _
      simp only [F64.add]
      rw [if_neg hz]
    rw [he] at kn ⊢
    rw [q1, q2, q3]
    have hval : toR (ofRat (val s m + val t n)) =
        if val s m + val t n < 0 then -((rnd |val s m + val t n| : ℚ) : ℝ) else ((rnd |val s m + val t n| : ℚ) : ℝ) := by
      obtain ⟨s', m', q3, -, -, q4⟩ := kn.form
      unfold ofRat at q3 ⊢
      split_ifs with hc
      · rw [if_pos hc, round_eq] at q3
        rw [abs_of_neg hc, round_eq]
        split_ifs at q3 ⊢ with hov
        rw [real_fin]; simp [val]
      · rw [if_neg hc, round_eq] at q3
        rw [abs_of_nonneg (not_lt.1 hc), round_eq]
        split_ifs at q3 ⊢ with hov
        rw [real_fin]; simp [val]
    rw [hval]
    rw [← Rat.cast_add]
    have hnear := rnd_nearest (abs_nonneg (val s m + val t n)) r''.2.2
    have habs : |val t' y'| = y' := by cases t' <;> simp [val, abs_of_nonneg r''.1]
    generalize val s m + val t n = x at *
    have h1 : |rnd |x| - (|x| : ℚ)| ≤ |val t' y' - x| := by
      have h0 := abs_abs_sub_abs_le_abs_sub (val t' y') x
      rw [habs] at h0
      exact hnear.trans h0
    have h2 := (Rat.cast_le (K := ℝ)).2 h1
    rw [Rat.cast_abs, Rat.cast_abs, Rat.cast_sub, Rat.cast_sub] at h2
    refine le_trans (le_of_eq ?_) h2
    split_ifs with hc
    · rw [abs_of_neg hc, Rat.cast_neg, ← abs_neg]; congr 1; ring
    · rw [abs_of_nonneg (not_lt.1 hc)]

/-- the difference of magnitudes within a factor of two is exact -/
theorem dyad_sub {a b : ℚ} (ha : Dyad a) (hb : Dyad b) (hab : a ≤ b) (h : b - a ≤ a) : Dyad (b - a) := by
  obtain ⟨m, e, hm, he, rfl⟩ := ha
  obtain ⟨n, g, hn, hg, rfl⟩ := hb
  rcases le_total e g with hl | hl
  · obtain ⟨k, hk⟩ : ∃ k : ℕ, g = e + k := ⟨(g - e).toNat, by omega⟩
    have e1 : (n : ℚ) * 2 ^ g = ((n * 2 ^ k : ℕ) : ℚ) * 2 ^ e := by
      rw [hk, zpow_add₀ two_ne_zero, zpow_natCast]; push_cast; ring
    rw [e1] at hab h ⊢
    rw [← sub_mul] at h ⊢
    have hT := two_zpow_pos e
    have h1 : m ≤ n * 2 ^ k := by exact_mod_cast le_of_mul_le_mul_right hab hT
    have h2 := le_of_mul_le_mul_right h hT
    rw [← Nat.cast_sub h1] at h2 ⊢
    exact ⟨n * 2 ^ k - m, e, lt_of_le_of_lt (by exact_mod_cast h2) hm, he, rfl⟩
  · obtain ⟨k, hk⟩ : ∃ k : ℕ, e = g + k := ⟨(e - g).toNat, by omega⟩
    have e1 : (m : ℚ) * 2 ^ e = ((m * 2 ^ k : ℕ) : ℚ) * 2 ^ g := by
      rw [hk, zpow_add₀ two_ne_zero, zpow_natCast]; push_cast; ring
    rw [e1] at hab ⊢
    rw [← sub_mul]
    have hT := two_zpow_pos g
    have h1 : m * 2 ^ k ≤ n := by exact_mod_cast le_of_mul_le_mul_right hab hT
    rw [← Nat.cast_sub h1]
    exact ⟨n - m * 2 ^ k, g, by omega, hg, rfl⟩

/-- differences of doubles of one sign and within a factor of two are exact -/
theorem sub_exact {a b : F64} (ha : Num a) (hb : Num b) (h : |toR b - toR a| ≤ |toR a|) (h' : |toR b - toR a| ≤ |toR b|)
    (hM : |toR b - toR a| ≤ 2 ^ (1023 : ℤ)) : toR (b - a) = toR b - toR a := by
  obtain ⟨s, m, rfl, r, hm, q1⟩ := ha.form
  obtain ⟨t, n, rfl, r', hn, q2⟩ := hb.form
  have hsub : F64.fin t n - F64.fin s m = F64.fin t n + F64.fin (!s) m := rfl
  have e0 : val t n + val (!s) m = val t n - val s m := by rw [val_neg]; ring
  have c1 : |val t n - val s m| ≤ m := by
    have h0 : |toR (F64.fin s m)| = (m : ℝ) := by
      rw [q1]; have : (0:ℝ) ≤ (m : ℝ) := by exact_mod_cast r.1
      cases s <;> simp [val, abs_of_nonneg this]
    rw [h0, q1, q2] at h; exact_mod_cast h
  have c2 : |val t n - val s m| ≤ n := by
    have h0 : |toR (F64.fin t n)| = (n : ℝ) := by
      rw [q2]; have : (0:ℝ) ≤ (n : ℝ) := by exact_mod_cast r'.1
      cases t <;> simp [val, abs_of_nonneg this]
    rw [h0, q1, q2] at h'; exact_mod_cast h'
  have c3 : |val t n - val s m| ≤ 2 ^ (1023 : ℤ) := by
    rw [q1, q2] at hM
    exact (Rat.cast_le (K := ℝ)).1 (by rw [two_pow_cast]; push_cast; exact hM)
  have hd : Dyad |val t n - val s m| := by
    have same : |n - m| ≤ m → |n - m| ≤ n → Dyad |n - m| := by
      intro g1 g2
      rcases le_total m n with hl | hl
      · rw [abs_of_nonneg (sub_nonneg.2 hl)] at g1 ⊢
        exact dyad_sub r.2.2 r'.2.2 hl g1
      · rw [abs_of_nonpos (sub_nonpos.2 hl), neg_sub] at g2 ⊢
        exact dyad_sub r'.2.2 r.2.2 hl g2
    have r0 := r.1
    have r0' := r'.1
    clear hM c3
    cases s <;> cases t <;> simp only [val, Bool.false_eq_true, if_false, if_true] at c1 c2 ⊢
    · exact same c1 c2
    · rw [abs_of_nonpos (by linarith)] at c1 c2
      have : n = 0 := by linarith
      have : m = 0 := by linarith
      subst_vars
      exact ⟨0, 0, by norm_num, by norm_num, by simp⟩
    · rw [abs_of_nonneg (by linarith)] at c1 c2
      have : n = 0 := by linarith
      have : m = 0 := by linarith
      subst_vars
      exact ⟨0, 0, by norm_num, by norm_num, by simp⟩
    · have e : -n - -m = -(n - m) := by ring
      rw [e, abs_neg] at c1 c2 ⊢
      exact same c1 c2
  rw [hsub, q1, q2]
  show toR (F64.add _ _) = _
  simp only [F64.add]
  rw [e0]
  split_ifs with hz
  · rw [real_fin]
    have : ((val t n : ℚ) : ℝ) - ((val s m : ℚ) : ℝ) = 0 := by exact_mod_cast hz
    rw [this]; simp [val]
  · rw [(ofRat_val c3).2, rnd_exact hd]
    split_ifs with hc
    · rw [abs_of_neg hc]; push_cast; ring
    · rw [abs_of_nonneg (not_lt.1 hc)]; push_cast; ring

/-- large doubles are even multiples of the smallest one -/
theorem Num.even {a : F64} (h : Num a) (hb : (2:ℝ) ^ (-1021 : ℤ) ≤ |toR a|) : ∃ k : ℤ, toR a = (2 * k : ℤ) * (2:ℝ) ^ (-1074 : ℤ) := by
  obtain ⟨s, m, rfl, r, -, q⟩ := h.form
  obtain ⟨n, e, hn, he, hm⟩ := r.2.2
  have habs : |toR (.fin s m)| = ((n * (2:ℚ) ^ e : ℚ) : ℝ) := by
    rw [q, ← hm]
    have : (0:ℝ) ≤ (m : ℝ) := by exact_mod_cast r.1
    cases s <;> simp [val, abs_of_nonneg this]
  have he' : -1073 ≤ e := by
    by_contra hc
    have : e = -1074 := by omega
    subst this
    rw [habs] at hb
    have h1 : (2:ℚ) ^ (-1021 : ℤ) ≤ n * 2 ^ (-1074 : ℤ) := (Rat.cast_le (K := ℝ)).1 (by rw [two_pow_cast]; exact hb)
    have h2 : (n : ℚ) < 2 ^ (53 : ℤ) := by exact_mod_cast hn
    have h3 := mul_lt_mul_of_pos_right h2 (two_zpow_pos (-1074))
    rw [← zpow_add₀ two_ne_zero] at h3
    exact absurd (h1.trans_lt h3) (lt_irrefl _)
  obtain ⟨k, hk⟩ : ∃ k : ℕ, e = k + (1 + -1074) := ⟨(e + 1073).toNat, by omega⟩
  have e1 : m = ((2 * (n * 2 ^ k : ℕ) : ℤ) : ℚ) * 2 ^ (-1074 : ℤ) := by
    rw [hm, hk, zpow_add₀ two_ne_zero, zpow_add₀ two_ne_zero, zpow_natCast]; push_cast; ring
  rw [q]
  cases s
  · exact ⟨(n * 2 ^ k : ℕ), by simp only [val, Bool.false_eq_true, if_false]; rw [e1]; push_cast; rfl⟩
  · exact ⟨-(n * 2 ^ k : ℕ), by simp only [val, if_true]; rw [e1]; push_cast; ring⟩

/-- The middle the code computes for an interval with a double inside (away from the subnormal ones) is inside. -/
theorem mid_inside {l h p : F64} (hl : Num l) (hh : Num h) (hp : Num p) (h1 : toR l < toR p) (h2 : toR p < toR h)
    (hb : toR h - toR l ≤ 2 ^ (1023 : ℤ)) (hs : toR p = 0 ∨ (2:ℝ) ^ (-1020 : ℤ) ≤ |toR p|) :
    Num (l + (h - l) / Scalar.lit 2) ∧ toR l < toR (l + (h - l) / Scalar.lit 2) ∧ toR (l + (h - l) / Scalar.lit 2) < toR h := by
  have hlt := h1.trans h2
  have hp0 : 0 < toR h - toR l := sub_pos.2 hlt
  obtain ⟨kn, k1, k2, kerr⟩ := center1 hl hh hlt hb
  have hη := eta_pos
  have g1 : 2 ^ (-1074 : ℤ) ≤ toR p - toR l := (hp.multR.sub hl.multR).le_of_pos (sub_pos.2 h1)
  have g2 : 2 ^ (-1074 : ℤ) ≤ toR h - toR p := (hh.multR.sub hp.multR).le_of_pos (sub_pos.2 h2)
  -- neighbours are close to zero
  have adj : ∀ {a b : F64}, Num a → Num b → toR b = toR a + 2 ^ (-1074 : ℤ) → (2:ℝ) ^ (-1021 : ℤ) ≤ |toR a| →
      (2:ℝ) ^ (-1021 : ℤ) ≤ |toR b| → False := by
    intro a b ha hb' e i1 i2
    obtain ⟨j, hj⟩ := ha.even i1
    obtain ⟨k, hk⟩ := hb'.even i2
    rw [hj, hk] at e
    have h3 : (((2 * k : ℤ) : ℝ) - (2 * j : ℤ) - 1) * 2 ^ (-1074 : ℤ) = 0 := by linarith
    rcases mul_eq_zero.1 h3 with h3 | h3
    · have : 2 * k - 2 * j - 1 = 0 := by exact_mod_cast h3
      omega
    · exact hη.ne' h3
  have hnear := add_nearest hl (toR_half (toR_sub hh hl (by rwa [abs_of_pos hp0])).1).1 hp kn
  obtain ⟨d1, -⟩ := toR_sub hh hl (by rwa [abs_of_pos hp0])
  obtain ⟨e1, e2⟩ := toR_half d1
  have e0 : 0 ≤ toR ((h - l) / Scalar.lit 2) := by
    have h3 := key_sub_pos_of_lt hl hh hlt
    rw [d1.key] at h3
    have d0 : 0 < toR (h - l) := by exact_mod_cast h3
    exact le_half d1 ⟨0, by simp⟩ (by linarith)
  have hw := eta_half
  have hu := u_small
  have p20 : (2:ℝ) ^ (-1020 : ℤ) = 2 * 2 ^ (-1021 : ℤ) := by
    rw [show (-1020 : ℤ) = 1 + -1021 by norm_num, zpow_add₀ two_ne_zero]; simp
  have p21 : (2:ℝ) ^ (-1074 : ℤ) ≤ 2 ^ (-1021 : ℤ) := zpow_le_zpow_right₀ one_le_two (by norm_num)
  have fine : 2 * (toR h - toR l) < max |toR l| |toR h| →
      toR (h - l) = toR h - toR l ∧ (2:ℝ) ^ (-1020 : ℤ) ≤ |toR p| := by
    intro hc
    have b1 := abs_sub_abs_le_abs_sub (toR l) (toR h)
    have b2 := abs_sub_abs_le_abs_sub (toR h) (toR l)
    rw [abs_sub_comm] at b1
    rw [abs_of_pos hp0] at b1 b2
    constructor
    · refine sub_exact hl hh ?_ ?_ ?_ <;> rw [abs_of_pos hp0]
      · rcases lt_max_iff.1 hc with hc | hc <;> linarith
      · rcases lt_max_iff.1 hc with hc | hc <;> linarith
      · exact hb
    · refine hs.resolve_left fun h0 => ?_
      rw [h0] at h1 h2
      rw [abs_of_neg h1, abs_of_pos h2] at hc
      rcases lt_max_iff.1 hc with hc | hc <;> linarith
  have wide : max |toR l| |toR h| ≤ 2 * (toR h - toR l) →
      |toR (l + (h - l) / Scalar.lit 2) - (toR l + toR h) / 2| < (toR h - toR l) / 2 := by
    intro hc
    refine lt_of_le_of_lt kerr ?_
    rw [hw, hu]
    generalize max |toR l| |toR h| = M at *
    clear kerr hnear hs p20 p21 fine hu hw adj e2 e1
    generalize (2:ℝ) ^ (-1074 : ℤ) = T at *
    clear hb
    linarith
  clear kerr
  generalize hm : l + (h - l) / Scalar.lit 2 = m at *
  generalize hL : h - l = L at *
  generalize hE : L / Scalar.lit 2 = E at *
  rw [hw, abs_le] at e2
  refine ⟨kn, lt_of_le_of_ne k1 ?_, lt_of_le_of_ne k2 ?_⟩ <;> intro he
  · rcases le_or_gt (max |toR l| |toR h|) (2 * (toR h - toR l)) with hc | hc
    · have := wide hc
      rw [← he, abs_lt] at this
      linarith only [this.1, this.2]
    · obtain ⟨f1, f2⟩ := fine hc
      rw [← he] at hnear
      have : |toR l - (toR l + toR E)| = toR E := by
        rw [show toR l - (toR l + toR E) = -toR E by ring, abs_neg, abs_of_nonneg e0]
      rw [this] at hnear
      rw [f1] at e2
      have hge : toR E ≤ toR p - (toR l + toR E) := by
        rcases abs_choice (toR p - (toR l + toR E)) with h3 | h3 <;> rw [h3] at hnear <;> linarith
      have hp' : toR h = toR p + 2 ^ (-1074 : ℤ) := by
        refine le_antisymm ?_ ?_
        · linarith only [e2.1, e2.2, hge]
        · linarith only [g2]
      refine adj hp hh hp' (by linarith only [f2, p20, hη, p21]) ?_
      have := abs_sub_abs_le_abs_sub (toR p) (toR h)
      rw [hp', show toR p - (toR p + 2 ^ (-1074 : ℤ)) = -(2:ℝ) ^ (-1074 : ℤ) by ring, abs_neg, abs_of_pos hη, ← hp'] at this
      linarith only [this, f2, p20, p21]
  · rcases le_or_gt (max |toR l| |toR h|) (2 * (toR h - toR l)) with hc | hc
    · have := wide hc
      rw [he, abs_lt] at this
      linarith only [this.1, this.2]
    · obtain ⟨f1, f2⟩ := fine hc
      rw [he] at hnear
      rw [f1] at e2
      have hle : toR l + toR E ≤ toR h := by
        refine le_of_not_gt fun hgt => ?_
        linarith only [e2.1, e2.2, g1, g2, hgt]
      rw [abs_of_nonneg (sub_nonneg.2 hle)] at hnear
      have hge : toR h - (toR l + toR E) ≤ (toR l + toR E) - toR p := by
        rcases abs_choice (toR p - (toR l + toR E)) with h3 | h3 <;> rw [h3] at hnear <;> linarith
      have hp' : toR p = toR l + 2 ^ (-1074 : ℤ) := by
        refine le_antisymm ?_ ?_
        · linarith only [e2.1, e2.2, hge]
        · linarith only [g1]
      refine adj hl hp hp' ?_ (by linarith only [f2, p20, hη, p21])
      have := abs_sub_abs_le_abs_sub (toR p) (toR l)
      rw [hp', show toR l + 2 ^ (-1074 : ℤ) - toR l = (2:ℝ) ^ (-1074 : ℤ) by ring, abs_of_pos hη, ← hp'] at this
      linarith only [this, f2, p20, p21]

end F64
end R3D
