import Verif.Lemmas.F64Err
/-!
One operation on finite doubles: the value of the result, its error and its order.
-/
namespace R3D
namespace F64

theorem Num.mk' {s : Bool} {m : ℚ} (h : Rep (.fin s m)) : Num (.fin s m) := ⟨⟨s, m, rfl⟩, h⟩

theorem Num.neg {a : F64} (h : Num a) : Num (F64.neg a) := by
  obtain ⟨⟨s, m, rfl⟩, r⟩ := h; exact Num.mk' r

theorem Num.abs {a : F64} (h : Num a) : Num (F64.abs a) := by
  obtain ⟨⟨s, m, rfl⟩, r⟩ := h; exact Num.mk' r

theorem toR_neg {a : F64} (h : Num a) : toR (F64.neg a) = -toR a := by
  obtain ⟨⟨s, m, rfl⟩, r⟩ := h
  show toR (.fin (!s) m) = _
  rw [real_fin, real_fin, val_neg]; push_cast; rfl

theorem toR_abs {a : F64} (h : Num a) : toR (Scalar.abs a) = |toR a| := by
  obtain ⟨⟨s, m, rfl⟩, r⟩ := h
  show toR (.fin false m) = _
  rw [real_fin, real_fin]
  have h0 : (0:ℝ) ≤ (m:ℝ) := by exact_mod_cast r.1
  cases s <;> simp [val, abs_of_nonneg h0]

theorem num_lt {a b : F64} (ha : Num a) (hb : Num b) : Scalar.lt a b = true ↔ toR a < toR b := by
  show F64.lt a b = true ↔ _
  rw [F64.lt_iff, ha.key, hb.key, EReal.coe_lt_coe_iff]
  exact ⟨fun h => h.2.2, fun h => ⟨ha.ok, hb.ok, h⟩⟩

theorem num_le {a b : F64} (ha : Num a) (hb : Num b) : Scalar.le a b = true ↔ toR a ≤ toR b := by
  rw [LawfulScalar.le_iff]
  show _ ∧ _ ∧ F64.key a ≤ F64.key b ↔ _
  rw [ha.key, hb.key, EReal.coe_le_coe_iff]
  exact ⟨fun h => h.2.2, fun h => ⟨ha.ok, hb.ok, h⟩⟩

theorem num_eq {a b : F64} (ha : Num a) (hb : Num b) : Scalar.eq a b = true ↔ toR a = toR b := by
  show F64.eq a b = true ↔ _
  rw [F64.eq_iff, ha.key, hb.key, EReal.coe_eq_coe_iff]
  exact ⟨fun h => h.2.2, fun h => ⟨ha.ok, hb.ok, h⟩⟩

theorem two_pow_cast (e : ℤ) : (((2:ℚ) ^ e : ℚ) : ℝ) = (2:ℝ) ^ e := by push_cast; rfl

/-- no overflow up to `2^1023` -/
theorem round_fin (s : Bool) {q : ℚ} (h : q ≤ 2 ^ (1023 : ℤ)) : round s q = .fin s (rnd q) := by
  rw [round_eq, if_neg]
  have := rnd_mono h
  rw [rnd_exact (dyad_pow2 (by norm_num))] at this
  exact not_le.2 (this.trans_lt (zpow_lt_zpow_right₀ one_lt_two (by norm_num)))

/-- the value of a rounded rational, any sign -/
theorem ofRat_val {q : ℚ} (h : |q| ≤ 2 ^ (1023 : ℤ)) : Num (ofRat q) ∧ toR (ofRat q) = if q < 0 then -((rnd |q| : ℚ) : ℝ) else ((rnd |q| : ℚ) : ℝ) := by
  unfold ofRat
  split_ifs with h1
  · rw [abs_of_neg h1] at h ⊢
    have e := round_fin true h
    have r := round_rep true (-q)
    rw [e] at r ⊢
    refine ⟨Num.mk' r, ?_⟩
    rw [real_fin]; simp [val]
  · rw [abs_of_nonneg (not_lt.1 h1)] at h ⊢
    have e := round_fin false h
    have r := round_rep false q
    rw [e] at r ⊢
    refine ⟨Num.mk' r, ?_⟩
    rw [real_fin]; simp [val]

/-- error of rounding, from an error of the magnitude -/
theorem ofRat_err {q e : ℚ} (h : |q| ≤ 2 ^ (1023 : ℤ)) (he : |(rnd |q| - |q|)| ≤ e) :
    Num (ofRat q) ∧ |toR (ofRat q) - (q : ℝ)| ≤ (e : ℝ) := by
  obtain ⟨h1, h2⟩ := ofRat_val h
  refine ⟨h1, ?_⟩
  rw [h2]
  have he' : |(((rnd |q| : ℚ) : ℝ) - |(q:ℝ)|)| ≤ (e:ℝ) := by exact_mod_cast he
  split_ifs with hq
  · have hq' : (q:ℝ) < 0 := by exact_mod_cast hq
    rw [abs_of_neg hq'] at he'
    rw [← abs_neg]; convert he' using 2; ring
  · have hq' : (0:ℝ) ≤ q := by exact_mod_cast not_lt.1 hq
    rwa [abs_of_nonneg hq'] at he'

theorem Mult.add {p q : ℚ} (hp : Mult p) (hq : Mult q) : Mult (p + q) := by
  obtain ⟨k, rfl⟩ := hp
  obtain ⟨l, rfl⟩ := hq
  exact ⟨k + l, by push_cast; ring⟩

theorem Num.form {a : F64} (h : Num a) : ∃ s m, a = .fin s m ∧ Rep (.fin s m) ∧ Mult (val s m) ∧ toR a = ((val s m : ℚ) : ℝ) := by
  obtain ⟨⟨s, m, rfl⟩, r⟩ := h
  exact ⟨s, m, rfl, r, val_mult r.2.2, real_fin s m⟩

/-- sums: relative error of one rounding, underflow does not occur -/
theorem toR_add {a b : F64} (ha : Num a) (hb : Num b) (h : |toR a + toR b| ≤ 2 ^ (1023 : ℤ)) :
    Num (a + b) ∧ |toR (a + b) - (toR a + toR b)| ≤ 2 ^ (-53 : ℤ) * |toR a + toR b| := by
  obtain ⟨s, m, rfl, r, hm, e1⟩ := ha.form
  obtain ⟨t, n, rfl, r', hn, e2⟩ := hb.form
  rw [e1, e2] at h ⊢
  have hq : |val s m + val t n| ≤ 2 ^ (1023 : ℤ) := by exact_mod_cast h
  have hrel := (hm.add hn).abs.rel (abs_nonneg _)
  obtain ⟨k1, k2⟩ := ofRat_err hq hrel
  show Num (F64.add _ _) ∧ |toR (F64.add _ _) - _| ≤ _
  simp only [F64.add]
  split_ifs with h0
  · refine ⟨Num.mk' (fin_zero_rep _), ?_⟩
    rw [real_fin]
    have : ((val s m : ℚ) : ℝ) + ((val t n : ℚ) : ℝ) = 0 := by exact_mod_cast h0
    rw [this]; simp [val]
  · refine ⟨k1, ?_⟩
    push_cast at k2 ⊢
    exact k2

theorem sub_eq_add_neg' (a b : F64) : a - b = a + F64.neg b := rfl

theorem toR_sub {a b : F64} (ha : Num a) (hb : Num b) (h : |toR a - toR b| ≤ 2 ^ (1023 : ℤ)) :
    Num (a - b) ∧ |toR (a - b) - (toR a - toR b)| ≤ 2 ^ (-53 : ℤ) * |toR a - toR b| := by
  rw [sub_eq_add_neg', sub_eq_add_neg (toR a), ← toR_neg hb]
  refine toR_add ha hb.neg ?_
  rwa [toR_neg hb, ← sub_eq_add_neg]

/-- products: one rounding, with underflow -/
theorem toR_mul {a b : F64} (ha : Num a) (hb : Num b) (h : |toR a * toR b| ≤ 2 ^ (1023 : ℤ)) :
    Num (a * b) ∧ |toR (a * b) - toR a * toR b| ≤ 2 ^ (-53 : ℤ) * |toR a * toR b| + 2 ^ (-1075 : ℤ) := by
  obtain ⟨s, m, rfl, r, hm, e1⟩ := ha.form
  obtain ⟨t, n, rfl, r', hn, e2⟩ := hb.form
  rw [e1, e2] at h ⊢
  have hp := mul_nonneg r.1 r'.1
  have hv : val s m * val t n = val (xor s t) (m * n) := by cases s <;> cases t <;> simp [val]
  have hab : |val s m * val t n| = m * n := by
    rw [hv]; cases (xor s t) <;> simp only [val] <;> simp [abs_of_nonneg r.1, abs_of_nonneg r'.1]
  have hq : m * n ≤ 2 ^ (1023 : ℤ) := by
    rw [← hab]; exact_mod_cast h
  show Num (F64.mul _ _) ∧ |toR (F64.mul _ _) - _| ≤ _
  simp only [F64.mul]
  have hr := round_rep (xor s t) (m * n)
  have he := abs_rnd hp
  rw [round_fin _ hq] at hr ⊢
  refine ⟨Num.mk' hr, ?_⟩
  rw [real_fin]
  have : |val (xor s t) (rnd (m * n)) - val s m * val t n| ≤ 2 ^ (-53 : ℤ) * |val s m * val t n| + 2 ^ (-1075 : ℤ) := by
    rw [hab, hv]
    cases (xor s t)
    · exact he
    · simp only [val, if_true]
      rw [← abs_neg]; convert he using 2; ring
  have h3 := (Rat.cast_le (K := ℝ)).2 this
  simpa only [Rat.cast_sub, Rat.cast_mul, Rat.cast_add, Rat.cast_abs, Rat.cast_zpow, Rat.cast_ofNat] using h3

/-- quotients: one rounding, with underflow -/
theorem toR_div {a b : F64} (ha : Num a) (hb : Num b) (h0 : toR b ≠ 0) (h : |toR a / toR b| ≤ 2 ^ (1023 : ℤ)) :
    Num (a / b) ∧ |toR (a / b) - toR a / toR b| ≤ 2 ^ (-53 : ℤ) * |toR a / toR b| + 2 ^ (-1075 : ℤ) := by
  obtain ⟨s, m, rfl, r, hm, e1⟩ := ha.form
  obtain ⟨t, n, rfl, r', hn, e2⟩ := hb.form
  rw [e1, e2] at h ⊢
  rw [e2] at h0
  have hn0 : n ≠ 0 := by
    rintro rfl
    apply h0
    cases t <;> simp [val]
  have hp := div_nonneg r.1 r'.1
  have hv : val s m / val t n = val (xor s t) (m / n) := by cases s <;> cases t <;> simp [val, neg_div, div_neg]
  have hab : |val s m / val t n| = m / n := by
    rw [hv]; cases (xor s t) <;> simp only [val] <;> simp [abs_div, abs_of_nonneg r.1, abs_of_nonneg r'.1]
  have hq : m / n ≤ 2 ^ (1023 : ℤ) := by
    rw [← hab]; exact_mod_cast h
  show Num (F64.div _ _) ∧ |toR (F64.div _ _) - _| ≤ _
  simp only [F64.div]
  rw [if_neg hn0]
  have hr := round_rep (xor s t) (m / n)
  have he := abs_rnd hp
  rw [round_fin _ hq] at hr ⊢
  refine ⟨Num.mk' hr, ?_⟩
  rw [real_fin]
  have : |val (xor s t) (rnd (m / n)) - val s m / val t n| ≤ 2 ^ (-53 : ℤ) * |val s m / val t n| + 2 ^ (-1075 : ℤ) := by
    rw [hab, hv]
    cases (xor s t)
    · exact he
    · simp only [val, if_true]
      rw [← abs_neg]; convert he using 2; ring
  have h3 := (Rat.cast_le (K := ℝ)).2 this
  simpa only [Rat.cast_sub, Rat.cast_mul, Rat.cast_div, Rat.cast_add, Rat.cast_abs, Rat.cast_zpow, Rat.cast_ofNat] using h3

/-! ### order, without any bound -/

theorem key_add_le_add {a b c d : F64} (ha : Num a) (hb : Num b) (hc : Num c) (hd : Num d) (h : toR a + toR b ≤ toR c + toR d) :
    key (a + b) ≤ key (c + d) := by
  obtain ⟨s, m, rfl, r, hm, e1⟩ := ha.form
  obtain ⟨t, n, rfl, r', hn, e2⟩ := hb.form
  obtain ⟨s', m', rfl, q, hm', e3⟩ := hc.form
  obtain ⟨t', n', rfl, q', hn', e4⟩ := hd.form
  show key (F64.add _ _) ≤ key (F64.add _ _)
  rw [key_add, key_add]
  rw [e1, e2, e3, e4] at h
  exact rkey_mono (by exact_mod_cast h)

theorem key_sub_mono {a b c d : F64} (ha : Num a) (hb : Num b) (hc : Num c) (hd : Num d) (h : toR a - toR b ≤ toR c - toR d) :
    key (a - b) ≤ key (c - d) := by
  rw [sub_eq_add_neg', sub_eq_add_neg']
  refine key_add_le_add ha hb.neg hc hd.neg ?_
  rw [toR_neg hb, toR_neg hd]; linarith

/-- a double at least as large as the exact sum is at least as large as the computed one -/
theorem key_add_le {a b c : F64} (ha : Num a) (hb : Num b) (hc : Num c) (h : toR a + toR b ≤ toR c) : key (a + b) ≤ key c := by
  obtain ⟨s, m, rfl, r, hm, e1⟩ := ha.form
  obtain ⟨t, n, rfl, r', hn, e2⟩ := hb.form
  obtain ⟨s', m', rfl, q, hm', e3⟩ := hc.form
  show key (F64.add _ _) ≤ _
  rw [key_add, show key (.fin s' m') = rkey (val s' m') from (rkey_val q).symm]
  rw [e1, e2, e3] at h
  exact rkey_mono (by exact_mod_cast h)

theorem le_key_add {a b c : F64} (ha : Num a) (hb : Num b) (hc : Num c) (h : toR c ≤ toR a + toR b) : key c ≤ key (a + b) := by
  obtain ⟨s, m, rfl, r, hm, e1⟩ := ha.form
  obtain ⟨t, n, rfl, r', hn, e2⟩ := hb.form
  obtain ⟨s', m', rfl, q, hm', e3⟩ := hc.form
  show _ ≤ key (F64.add _ _)
  rw [key_add, show key (.fin s' m') = rkey (val s' m') from (rkey_val q).symm]
  rw [e1, e2, e3] at h
  exact rkey_mono (by exact_mod_cast h)

theorem key_sub_le {a b c : F64} (ha : Num a) (hb : Num b) (hc : Num c) (h : toR a - toR b ≤ toR c) : key (a - b) ≤ key c := by
  rw [sub_eq_add_neg']
  refine key_add_le ha hb.neg hc ?_
  rw [toR_neg hb]; linarith

theorem le_key_sub {a b c : F64} (ha : Num a) (hb : Num b) (hc : Num c) (h : toR c ≤ toR a - toR b) : key c ≤ key (a - b) := by
  rw [sub_eq_add_neg']
  refine le_key_add ha hb.neg hc ?_
  rw [toR_neg hb]; linarith

theorem ok_add_num {a b : F64} (ha : Num a) (hb : Num b) : ok (a + b) := by
  obtain ⟨⟨s, m, rfl⟩, -⟩ := ha
  obtain ⟨⟨t, n, rfl⟩, -⟩ := hb
  show ok (F64.add _ _)
  simp only [F64.add]
  split_ifs
  · exact F64.noConfusion
  · rcases ofRat_ok (val s m + val t n) with ⟨t, h⟩ | ⟨t, k, h⟩ <;> rw [h] <;> exact F64.noConfusion

theorem num_of_bounded {a : F64} (hr : Rep a) (hok : ok a) {x y : ℝ} (h1 : (x : EReal) ≤ key a) (h2 : key a ≤ (y : EReal)) : Num a := by
  cases a with
  | nan => exact absurd rfl hok
  | inf s =>
    cases s
    · exact absurd h2 (by simp [key])
    · exact absurd h1 (by simp [key])
  | fin s m => exact Num.mk' hr

/-- the smallest positive double -/
theorem Mult.le_of_pos {q : ℚ} (h : Mult q) (h0 : 0 < q) : (2:ℚ) ^ (-1074 : ℤ) ≤ q := by
  obtain ⟨k, rfl⟩ := h
  have hk : 0 < k := by
    by_contra hc
    have : (k:ℚ) ≤ 0 := by exact_mod_cast not_lt.1 hc
    nlinarith [two_zpow_pos (-1074)]
  have : (1:ℚ) ≤ k := by exact_mod_cast hk
  nlinarith [two_zpow_pos (-1074)]

/-- the difference of two different doubles is not zero -/
theorem key_sub_pos_of_lt {a b : F64} (ha : Num a) (hb : Num b) (h : toR a < toR b) : 0 < key (b - a) := by
  obtain ⟨s, m, rfl, r, hm, e1⟩ := ha.form
  obtain ⟨t, n, rfl, r', hn, e2⟩ := hb.form
  have hlt : val s m < val t n := by rw [e1, e2] at h; exact_mod_cast h
  have hle := (hn.sub hm).le_of_pos (sub_pos.2 hlt)
  show 0 < key (F64.sub _ _)
  rw [key_sub]
  have h1 := rkey_mono hle
  have hrep : Rep (.fin false ((2:ℚ) ^ (-1074 : ℤ))) :=
    ⟨(two_zpow_pos _).le, zpow_lt_zpow_right₀ one_lt_two (by norm_num), dyad_pow2 (by norm_num)⟩
  have h2 := rkey_val hrep
  simp only [val, Bool.false_eq_true, if_false] at h2
  rw [h2] at h1
  refine lt_of_lt_of_le ?_ h1
  have : (0:ℝ) < (((2:ℚ) ^ (-1074 : ℤ) : ℚ) : ℝ) := by exact_mod_cast two_zpow_pos (-1074)
  exact_mod_cast this

end F64
end R3D
