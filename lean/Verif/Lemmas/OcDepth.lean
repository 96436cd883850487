import Verif.Props.OcTreeKeep
/-!
C129, octree with doubles: how deep the construction goes.
-/
namespace R3D
open Scalar LawfulScalar Spec F64
namespace OcNode

theorem Stable.mono {n m : ℕ} {bb : BoundingBox3D F64} {pc : List (Point3D F64)} (h : Stable n bb pc) (hm : n ≤ m) : Stable m bb pc := by
  intro fuel hf
  rw [(h m hm).1]
  exact ⟨(h fuel (hm.trans hf)).1, (h m hm).2⟩

/-- large doubles lie on a coarse grid -/
theorem grid_of_ge {x : F64} (hx : F64.Num x) {e : ℤ} (h : (2:ℝ) ^ (e + 52) ≤ |toR x|) : ∃ z : ℤ, toR x = z * 2 ^ e := by
  obtain ⟨s, m, rfl, ⟨h0, -, n, f, hn, hf, hm⟩, -, er⟩ := hx.form
  have hm0 : (0:ℝ) ≤ ((m:ℚ):ℝ) := by exact_mod_cast h0
  have ha : |toR (.fin s m)| = (m:ℝ) := by
    rw [er]; cases s
    · simp only [val, Bool.false_eq_true, if_false]; exact abs_of_nonneg hm0
    · simp only [val, if_true, Rat.cast_neg, abs_neg]; exact abs_of_nonneg hm0
  have hmr : (m:ℝ) = n * 2 ^ f := by rw [hm]; push_cast; rfl
  rw [ha, hmr] at h
  have hle : e ≤ f := by
    by_contra hc
    have h1 : (n:ℝ) < 2 ^ (53:ℤ) := by exact_mod_cast hn
    have h2 : (n:ℝ) * 2 ^ f < 2 ^ (53:ℤ) * 2 ^ f := mul_lt_mul_of_pos_right h1 (by positivity)
    rw [← zpow_add₀ two_ne_zero] at h2
    have := h.trans_lt h2
    rw [zpow_lt_zpow_iff_right₀ one_lt_two] at this
    omega
  obtain ⟨k, rfl⟩ : ∃ k : ℕ, f = e + k := ⟨(f - e).toNat, by omega⟩
  have hz : (m:ℝ) = ((n * 2 ^ k : ℤ) : ℝ) * 2 ^ e := by
    rw [hmr, zpow_add₀ two_ne_zero, zpow_natCast]; push_cast; ring
  cases s
  · exact ⟨n * 2 ^ k, by rw [er]; simp only [val, Bool.false_eq_true, if_false]; exact hz⟩
  · refine ⟨-(n * 2 ^ k), ?_⟩
    rw [er]; simp only [val, if_true, Rat.cast_neg]
    rw [hz]; push_cast; ring

/-- on a grid, every level takes away one step -/
theorem stable_grid {s : ℝ} (hs0 : 0 < s) : ∀ (k : ℕ) (bb : BoundingBox3D F64) (pc : List (Point3D F64)), F64.Num bb.min.x → F64.Num bb.max.x →
    (∀ x, F64.Num x → toR bb.min.x ≤ toR x → toR x ≤ toR bb.max.x → ∃ z : ℤ, toR x = z * s) →
    toR bb.max.x - toR bb.min.x ≤ k * s → Stable (k + 1) bb pc := by
  intro k
  induction k with
  | zero =>
    intro bb pc h1 h2 _ h3
    refine stable_succ fun bbs hs d => Or.inl ?_
    by_cases hm : mid1 bb.min.x bb.max.x = .nan
    · exact empty_of_nan hs hm pc d
    · obtain ⟨hn, l1, l2⟩ := mid_in h1 h2 hs hm
      simp at h3
      linarith
  | succ k ih =>
    intro bb pc h1 h2 hg h3
    refine stable_succ fun bbs hs d => ?_
    by_cases hm : mid1 bb.min.x bb.max.x = .nan
    · exact Or.inl (empty_of_nan hs hm pc d)
    · obtain ⟨hn, l1, l2⟩ := mid_in h1 h2 hs hm
      obtain ⟨a, ha⟩ := hg _ h1 le_rfl (l1.trans l2).le
      obtain ⟨b, hb⟩ := hg _ h2 (l1.trans l2).le le_rfl
      obtain ⟨c, hc⟩ := hg _ hn l1.le l2.le
      refine Or.inr (ih _ _ ?_ ?_ ?_ ?_)
      · rcases (sub_x hs).2.2.2.2 d with e | e <;> rw [e.1] <;> assumption
      · rcases (sub_x hs).2.2.2.2 d with e | e <;> rw [e.2] <;> assumption
      · intro x hx
        rcases (sub_x hs).2.2.2.2 d with e | e <;> rw [e.1, e.2]
        · exact fun i j => hg x hx i (j.trans l2.le)
        · exact fun i j => hg x hx (l1.le.trans i) j
      · rw [ha, hc] at l1
        rw [hb, hc] at l2
        rw [ha, hb] at h3
        have g1 : a < c := by exact_mod_cast lt_of_mul_lt_mul_right l1 hs0.le
        have g2 : c < b := by exact_mod_cast lt_of_mul_lt_mul_right l2 hs0.le
        have g3 : b - a ≤ k + 1 := by
          rw [← sub_mul] at h3
          exact_mod_cast le_of_mul_le_mul_right h3 hs0
        have key : ∀ z : ℤ, z ≤ k → (z:ℝ) * s ≤ k * s := fun z hz =>
          mul_le_mul_of_nonneg_right (by exact_mod_cast hz) hs0.le
        rcases (sub_x hs).2.2.2.2 d with e | e
        · rw [e.1, e.2, ha, hc, ← sub_mul]; exact_mod_cast key (c - a) (by omega)
        · rw [e.1, e.2, hb, hc, ← sub_mul]; exact_mod_cast key (b - c) (by omega)

/-- a finite middle was computed from finite values -/
theorem mid_parts {l h : F64} (hl : F64.Num l) (hm : F64.Num (mid1 l h)) : F64.Num (h - l) := by
  have hr : Rep (h - l) := sub_rep _ _
  unfold mid1 at hm
  obtain ⟨s, m, rfl, -⟩ := hl.form
  generalize h - F64.fin s m = t at *
  cases t with
  | nan => exact absurd hm.1 (by rintro ⟨s, m, h⟩; exact F64.noConfusion h)
  | inf t =>
    have h2 : (Scalar.lit 2 : F64) = .fin false 2 := by decide +kernel
    rw [h2] at hm
    exact absurd hm.1 (by
      rintro ⟨s, m, h⟩
      cases t <;> exact F64.noConfusion h)
  | fin t k => exact Num.mk' hr

/-- the middle of a box that is wide compared to its corners -/
theorem mid_err {l h : F64} (hl : F64.Num l) (hh : F64.Num h) (hm : F64.Num (mid1 l h)) (hlt : toR l < toR h)
    (hw : (2:ℝ) ^ (-1068 : ℤ) ≤ toR h - toR l) (hA : max |toR l| |toR h| ≤ 2 ^ (47 : ℤ) * (toR h - toR l)) :
    |toR (mid1 l h) - (toR l + toR h) / 2| ≤ (toR h - toR l) / 16 := by
  have hd := mid_parts hl hm
  have d2 := toR_sub_of_num hh hl hd
  obtain ⟨t1, t2⟩ := toR_half hd
  have m2 := toR_add_of_num hl t1 hm
  have hp : 0 < toR h - toR l := sub_pos.2 hlt
  rw [abs_of_pos hp] at d2
  unfold mid1
  generalize toR (l + (h - l) / Scalar.lit 2) = m at *
  generalize toR ((h - l) / Scalar.lit 2) = t at *
  generalize toR (h - l) = d at *
  have hl1 : |toR l| ≤ 2 ^ (47 : ℤ) * (toR h - toR l) := (le_max_left _ _).trans hA
  have e1 : (2:ℝ) ^ (-1075 : ℤ) = 2 ^ (-7 : ℤ) * 2 ^ (-1068 : ℤ) := by rw [← zpow_add₀ two_ne_zero]; norm_num
  rw [e1] at t2
  generalize (2:ℝ) ^ (-1068 : ℤ) = Z at *
  generalize toR l = a at *
  generalize toR h = b at *
  have hsum : |a + t| ≤ |a| + |t| := abs_add_le _ _
  rw [abs_le] at d2 t2 m2
  have c53 : (2:ℝ) ^ (-53 : ℤ) = 1 / 9007199254740992 := by norm_num
  have c47 : (2:ℝ) ^ (47 : ℤ) = 140737488355328 := by norm_num
  have c7 : (2:ℝ) ^ (-7 : ℤ) = 1 / 128 := by norm_num
  rw [c53] at d2 m2
  rw [c47] at hl1
  rw [c7] at t2
  have ht0 : 0 ≤ t := by linarith [d2.1, d2.2, t2.1, t2.2]
  rw [abs_of_nonneg ht0] at hsum
  rw [abs_le]
  constructor <;> linarith [d2.1, d2.2, t2.1, t2.2, m2.1, m2.2]

theorem grid_min (x : F64) (hx : F64.Num x) : ∃ z : ℤ, toR x = z * (2:ℝ) ^ (-1074 : ℤ) := hx.multR

theorem stable_narrow {bb : BoundingBox3D F64} {pc : List (Point3D F64)} (h1 : F64.Num bb.min.x) (h2 : F64.Num bb.max.x)
    (h : toR bb.max.x - toR bb.min.x ≤ 2 ^ (-1068 : ℤ)) : Stable 65 bb pc := by
  refine stable_grid (s := 2 ^ (-1074 : ℤ)) (by positivity) 64 bb pc h1 h2 (fun x hx _ _ => grid_min x hx) (h.trans (le_of_eq ?_))
  rw [show ((64 : ℕ) : ℝ) = 2 ^ (6 : ℤ) by norm_num, ← zpow_add₀ two_ne_zero]; norm_num

theorem stable_far {bb : BoundingBox3D F64} {pc : List (Point3D F64)} (h1 : F64.Num bb.min.x) (h2 : F64.Num bb.max.x)
    (h : 2 ^ (47 : ℤ) * (toR bb.max.x - toR bb.min.x) < max |toR bb.min.x| |toR bb.max.x|) (hlt : toR bb.min.x < toR bb.max.x) : Stable 129 bb pc := by
  set A := max |toR bb.min.x| |toR bb.max.x| with hA
  have hW : 0 < toR bb.max.x - toR bb.min.x := sub_pos.2 hlt
  have c47 : (2:ℝ) ^ (47 : ℤ) = 140737488355328 := by norm_num
  rw [c47] at h
  have hA0 : 0 < A := by linarith
  obtain ⟨n, hn1, hn2⟩ := exists_mem_Ico_zpow (y := (2:ℝ)) (x := A / 2) (by linarith) one_lt_two
  have hs : A / 2 = 2 ^ (n + 1) * (A / 2 / 2 ^ (n + 1)) := by field_simp
  refine stable_grid (s := 2 ^ (n - 52)) (by positivity) 128 bb pc h1 h2 (fun x hx i j => grid_of_ge hx ?_) ?_
  · rw [show n - 52 + 52 = n by ring]
    refine hn1.trans ?_
    have hx1 : |toR bb.min.x| ≤ |toR x| + (toR bb.max.x - toR bb.min.x) := by
      have := abs_sub_abs_le_abs_sub (toR bb.min.x) (toR x)
      rw [abs_of_nonpos (by linarith : toR bb.min.x - toR x ≤ 0)] at this
      linarith
    have hx2 : |toR bb.max.x| ≤ |toR x| + (toR bb.max.x - toR bb.min.x) := by
      have := abs_sub_abs_le_abs_sub (toR bb.max.x) (toR x)
      rw [abs_of_nonneg (by linarith : 0 ≤ toR bb.max.x - toR x)] at this
      linarith
    have : A ≤ |toR x| + (toR bb.max.x - toR bb.min.x) := max_le hx1 hx2
    linarith
  · have e : (2:ℝ) ^ (n + 1) = 2 ^ (53:ℤ) * 2 ^ (n - 52) := by rw [← zpow_add₀ two_ne_zero]; congr 1; ring
    rw [e] at hn2
    have c53 : (2:ℝ) ^ (53 : ℤ) = 9007199254740992 := by norm_num
    rw [c53] at hn2
    have : (0:ℝ) < 2 ^ (n - 52) := by positivity
    push_cast
    linarith

theorem stable_shrink : ∀ (n : ℕ) (bb : BoundingBox3D F64) (pc : List (Point3D F64)), F64.Num bb.min.x → F64.Num bb.max.x →
    toR bb.max.x - toR bb.min.x ≤ (16 / 9) ^ n * 2 ^ (-1068 : ℤ) → Stable (n + 129) bb pc := by
  intro n
  induction n with
  | zero => intro bb pc h1 h2 h; exact (stable_narrow h1 h2 (by simpa using h)).mono (by norm_num)
  | succ n ih =>
    intro bb pc h1 h2 h
    by_cases hw : toR bb.max.x - toR bb.min.x ≤ 2 ^ (-1068 : ℤ)
    · exact (stable_narrow h1 h2 hw).mono (by omega)
    push Not at hw
    have hlt : toR bb.min.x < toR bb.max.x := by
      have : (0:ℝ) < 2 ^ (-1068 : ℤ) := by positivity
      linarith
    by_cases hA : 2 ^ (47 : ℤ) * (toR bb.max.x - toR bb.min.x) < max |toR bb.min.x| |toR bb.max.x|
    · exact (stable_far h1 h2 hA hlt).mono (by omega)
    push Not at hA
    rw [show n + 1 + 129 = (n + 129) + 1 by ring]
    refine stable_succ fun bbs hs d => ?_
    by_cases hm : mid1 bb.min.x bb.max.x = .nan
    · exact Or.inl (empty_of_nan hs hm pc d)
    · obtain ⟨hn, l1, l2⟩ := mid_in h1 h2 hs hm
      have herr := abs_le.1 (mid_err h1 h2 hn hlt hw.le hA)
      rw [pow_succ] at h
      refine Or.inr (ih _ _ ?_ ?_ ?_)
      · rcases (sub_x hs).2.2.2.2 d with e | e <;> rw [e.1] <;> assumption
      · rcases (sub_x hs).2.2.2.2 d with e | e <;> rw [e.2] <;> assumption
      · generalize (2:ℝ) ^ (-1068 : ℤ) = Z at *
        generalize ((16:ℝ) / 9) ^ n = P at *
        rcases (sub_x hs).2.2.2.2 d with e | e <;> rw [e.1, e.2] <;> linarith [herr.1, herr.2]

theorem stable_2652 (bb : BoundingBox3D F64) (pc : List (Point3D F64)) (h1 : Rep bb.min.x) (h2 : Rep bb.max.x) : Stable 2652 bb pc := by
  by_cases hn : F64.Num bb.min.x ∧ F64.Num bb.max.x
  · refine stable_shrink 2523 bb pc hn.1 hn.2 ?_
    have b1 := num_abs_le hn.1
    have b2 := num_abs_le hn.2
    rw [abs_le] at b1 b2
    have key : 2 * (2:ℝ) ^ (1024 : ℤ) ≤ (16 / 9) ^ 2523 * 2 ^ (-1068 : ℤ) := by
      have e : (2:ℝ) ^ (-1068 : ℤ) = 1 / 2 ^ 1068 := by rw [zpow_neg, one_div]; rfl
      have e' : (2:ℝ) ^ (1024 : ℤ) = 2 ^ 1024 := by rw [show (1024:ℤ) = ((1024:ℕ):ℤ) from rfl, zpow_natCast]
      rw [e, e', div_pow, div_mul_div_comm, mul_one, le_div_iff₀ (by positivity)]
      have : (2 * 2 ^ 1024 * (9 ^ 2523 * 2 ^ 1068) : ℕ) ≤ 16 ^ 2523 := by decide +kernel
      exact_mod_cast this
    linarith only [b1.1, b2.2, key]
  · refine (stable_succ (n := 0) fun bbs hs d => Or.inl ?_).mono (by norm_num)
    obtain ⟨a1, a2, a3, a4, -⟩ := sub_x hs
    rcases mid_odd hn h1 h2 with e | e | e
    · exact empty_of_nan hs e pc d
    · rw [e] at a1; exact absurd a1 (by decide)
    · rw [e] at a3; exact absurd a3 (by decide)

theorem stable_single {bb : BoundingBox3D F64} {pc : List (Point3D F64)} (h : pc.length ≤ 1) : Stable 1 bb pc := by
  match pc, h with
  | [], _ => exact stable_succ fun _ _ _ => Or.inl rfl
  | [p], _ =>
    intro fuel hf
    obtain ⟨fuel, rfl⟩ : ∃ k, fuel = k + 1 := ⟨fuel - 1, by omega⟩
    refine ⟨rfl, fun t ht => ?_⟩
    simp only [newNode] at ht
    rw [← Except.ok.inj ht]; trivial

/-- points that are far enough apart compared to their size are separated after a few halvings -/
theorem stable_sep {M δ : ℝ} (hM : 2 ^ (-1023 : ℤ) ≤ M) (hδ : 2 ^ (-49 : ℤ) * M ≤ δ) : ∀ (k : ℕ) (bb : BoundingBox3D F64) (pc : List (Point3D F64)),
    (∀ d, Good bb d) → (∀ d, |toR (at3 bb.min d)| ≤ M ∧ |toR (at3 bb.max d)| ≤ M) → pc.Nodup → (∀ q ∈ pc, NumP q) →
    (∀ p ∈ pc, ∀ q ∈ pc, p ≠ q → ∃ d, δ ≤ |toR (at3 p d) - toR (at3 q d)|) →
    (∀ q ∈ pc, ∀ d, toR (at3 bb.min d) ≤ toR (at3 q d) ∧ toR (at3 q d) ≤ toR (at3 bb.max d)) →
    (∀ d, toR (at3 bb.max d) - toR (at3 bb.min d) ≤ 2 ^ (-50 : ℤ) * M + δ / 4 * 2 ^ k) → Stable (k + 1) bb pc := by
  have c50 : (2:ℝ) ^ (-50 : ℤ) = 1 / 1125899906842624 := by norm_num
  have c49 : (2:ℝ) ^ (-49 : ℤ) = 2 * (1 / 1125899906842624) := by norm_num
  have hM0 : 0 < M := lt_of_lt_of_le (by positivity) hM
  rw [c49] at hδ
  rw [c50]
  intro k
  induction k with
  | zero =>
    intro bb pc hg hb hnd hnum hsep hin hw
    refine stable_single ?_
    match pc with
    | [] => simp
    | [p] => simp
    | p :: q :: l =>
      exfalso
      have hpq : p ≠ q := by rintro rfl; simp at hnd
      obtain ⟨d, hd⟩ := hsep p (by simp) q (by simp) hpq
      have h1 := hin p (by simp) d
      have h2 := hin q (by simp) d
      have h3 := hw d
      rw [pow_zero, mul_one] at h3
      have : |toR (at3 p d) - toR (at3 q d)| ≤ toR (at3 bb.max d) - toR (at3 bb.min d) := by
        rw [abs_le]; constructor <;> linarith [h1.1, h1.2, h2.1, h2.2]
      linarith
  | succ k ih =>
    intro bb pc hg hb hnd hnum hsep hin hw
    refine stable_succ fun bbs hs c => Or.inr (ih _ _ (good_sub hg hs c) (fun d => ?_) (hnd.filter _) (fun q hq => hnum q (List.mem_filter.1 hq).1)
      (fun p hp q hq => hsep p (List.mem_filter.1 hp).1 q (List.mem_filter.1 hq).1) (fun q hq d => ?_) (fun d => ?_))
    · obtain ⟨m1, m2, m3⟩ := mid_good hg hs d
      have e := side_sub hs c d
      have e1 : at3 (bbs c).min d = (side (bbs c) d).1 := rfl
      have e2 : at3 (bbs c).max d = (side (bbs c) d).2 := rfl
      obtain ⟨b1, b2⟩ := hb d
      have hm : |toR (middle (side bb d))| ≤ M := by
        rw [abs_le] at b1 b2 ⊢
        exact ⟨by linarith, by linarith⟩
      rw [e1, e2, e]
      split_ifs
      · exact ⟨hm, b2⟩
      · exact ⟨b1, hm⟩
    · obtain ⟨hq1, hq2⟩ := List.mem_filter.1 hq
      have := (cellOf_iff hg hs (hnum q hq1) c).1 (of_decide_eq_true hq2) d
      exact ⟨this.1.le, this.2.le⟩
    · have g := hg d
      obtain ⟨-, -, -, m4⟩ := center1 g.lo g.hi g.lt g.le
      have m4 : |toR (middle (side bb d)) - (toR (at3 bb.min d) + toR (at3 bb.max d)) / 2| ≤ _ := m4
      have e := side_sub hs c d
      have e1 : at3 (bbs c).min d = (side (bbs c) d).1 := rfl
      have e2 : at3 (bbs c).max d = (side (bbs c) d).2 := rfl
      obtain ⟨b1, b2⟩ := hb d
      have hmax : max |toR (at3 bb.min d)| |toR (at3 bb.max d)| ≤ M := max_le b1 b2
      have hwd := hw d
      rw [pow_succ] at hwd
      have z : (2:ℝ) ^ (-1075 : ℤ) = 2 ^ (-52 : ℤ) * 2 ^ (-1023 : ℤ) := by rw [← zpow_add₀ two_ne_zero]; norm_num
      have z2 : (2:ℝ) ^ (-52 : ℤ) = 1 / 4503599627370496 := by norm_num
      have z3 : (2:ℝ) ^ (-53 : ℤ) = 1 / 9007199254740992 := by norm_num
      rw [z, z2, z3] at m4
      generalize (2:ℝ) ^ (-1023 : ℤ) = Z at *
      generalize (2:ℝ) ^ k = K at *
      generalize max |toR (at3 bb.min d)| |toR (at3 bb.max d)| = A at *
      rw [abs_le] at m4 b1 b2
      rw [e1, e2, e]
      split_ifs
      · show toR (at3 bb.max d) - toR (middle (side bb d)) ≤ _
        linarith [m4.1, m4.2]
      · show toR (middle (side bb d)) - toR (at3 bb.min d) ≤ _
        linarith [m4.1, m4.2]

end OcNode
end R3D
