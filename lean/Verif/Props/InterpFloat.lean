import Verif.Props.SumFloat
import Verif.Props.Interpolate
/-!
# C78 with doubles
-/
namespace R3D
open Scalar LawfulScalar Spec F64

/-- the computed lengths of the segments -/
def segDists (l : List (Point2D F64)) : List F64 := List.zipWith (fun a b => b.dist a) l l.tail

/-- the computed length of the first `k` segments -/
def distAt (l : List (Point2D F64)) (before : F64) (k : Nat) : F64 := ((segDists l).take k).foldl (· + ·) before

theorem distAt_succ (p q : Point2D F64) (l : List (Point2D F64)) (before : F64) (k : Nat) :
    distAt (p :: q :: l) before (k + 1) = distAt (q :: l) (before + q.dist p) k := rfl

theorem walk_find (target : F64) (ht : F64.Num target) (build : F64 → Point2D F64 → Point2D F64 → Point2D F64) :
    ∀ (l : List (Point2D F64)) (before : F64), (∀ k, F64.Num (distAt l before k)) → toR before ≤ toR target →
      match walk target build before l with
      | none => toR (distAt l before l.length) < toR target ∨ l.length < 2
      | some r => ∃ k p q, l[k]? = some p ∧ l[k + 1]? = some q ∧
          r = build ((target - distAt l before k) / (distAt l before (k + 1) - distAt l before k)) p q ∧
          toR (distAt l before k) ≤ toR target ∧ toR target ≤ toR (distAt l before (k + 1)) ∧
          ∀ j, 0 < j → j ≤ k → toR (distAt l before j) < toR target
  | [], before, hk, h1 => by simp [walk]
  | [_], before, hk, h1 => by simp [walk]
  | p :: q :: l, before, hk, h1 => by
    have e0 : distAt (p :: q :: l) before 0 = before := rfl
    have e1 : distAt (p :: q :: l) before 1 = before + q.dist p := rfl
    have hd : Scalar.sqrt (Scalar.sq (q.x - p.x) + Scalar.sq (q.y - p.y)) = q.dist p := rfl
    have n1 : F64.Num (before + q.dist p) := hk 1
    rw [walk]
    simp only [hd]
    by_cases hc : toR target ≤ toR (before + q.dist p)
    · rw [if_pos ((num_le ht n1).2 hc)]
      exact ⟨0, p, q, rfl, rfl, rfl, h1, hc, fun j h0 h => absurd h0 (by omega)⟩
    · rw [if_neg (fun h => hc ((num_le ht n1).1 h))]
      push Not at hc
      have ih := walk_find target ht build (q :: l) (before + q.dist p) (fun k => hk (k + 1)) hc.le
      split at ih
      · rename_i hw
        rcases ih with ih | ih
        · exact .inl ih
        · left
          have : l = [] := by
            simp only [List.length_cons] at ih
            exact List.length_eq_zero_iff.1 (by omega)
          subst this
          exact hc
      · rename_i r hw
        obtain ⟨k, a, b, ka, kb, kr, k1, k2, k3⟩ := ih
        refine ⟨k + 1, a, b, by simpa using ka, by simpa using kb, kr, k1, k2, ?_⟩
        intro j h0 hj
        match j, h0 with
        | 1, _ => exact hc
        | j + 2, _ => exact k3 (j + 1) (by omega) (by omega)

theorem frac_err {t b c : F64} (ht : F64.Num t) (hb : F64.Num b) (hc : F64.Num c) (h1 : toR b ≤ toR t) (h2 : toR t ≤ toR c)
    (h3 : toR b < toR c) (h4 : toR c - toR b ≤ 2 ^ (1023 : ℤ)) :
    let f := (toR t - toR b) / (toR c - toR b)
    F64.Num ((t - b) / (c - b)) ∧ 0 ≤ f ∧ f ≤ 1 ∧ |toR ((t - b) / (c - b)) - f| ≤ 8 * uu ∧
      (toR t = toR b → toR ((t - b) / (c - b)) = 0) := by
  intro f
  have hy : 0 < toR c - toR b := by linarith
  have hx : 0 ≤ toR t - toR b := by linarith
  have hu := uu_pos
  have hu2 : uu ≤ 1 / 1000 := by unfold uu; rw [u_small]; norm_num
  obtain ⟨n1, e1⟩ := toR_sub ht hb (by rw [abs_of_nonneg hx]; exact le_trans (by linarith) h4)
  obtain ⟨n2, e2⟩ := toR_sub hc hb (by rw [abs_of_nonneg hy.le]; exact h4)
  rw [abs_of_nonneg hx] at e1
  rw [abs_of_nonneg hy.le] at e2
  change _ ≤ uu * _ at e1
  change _ ≤ uu * _ at e2
  have hf0 : 0 ≤ f := div_nonneg hx hy.le
  have hf1 : f ≤ 1 := (div_le_one hy).2 (by linarith)
  have hfx : toR t - toR b = f * (toR c - toR b) := by simp only [f]; field_simp
  set y := toR c - toR b with hyd
  have hy' : y / 2 ≤ toR (c - b) := by
    have := (abs_le.1 e2).1
    nlinarith
  have hy'0 : 0 < toR (c - b) := by linarith
  rw [hfx] at e1
  have hq : |toR (t - b) / toR (c - b) - f| ≤ 4 * uu := by
    have e : toR (t - b) / toR (c - b) - f = ((toR (t - b) - f * y) - f * (toR (c - b) - y)) / toR (c - b) := by
      field_simp; ring
    rw [e, abs_div, abs_of_pos hy'0, div_le_iff₀ hy'0]
    have h5 := abs_sub (toR (t - b) - f * y) (f * (toR (c - b) - y))
    rw [abs_mul f, abs_of_nonneg hf0] at h5
    have h6 : f * |toR (c - b) - y| ≤ 1 * (uu * y) := mul_le_mul hf1 e2 (abs_nonneg _) (by norm_num)
    have h7 : uu * (f * y) ≤ uu * (1 * y) := mul_le_mul_of_nonneg_left (mul_le_mul_of_nonneg_right hf1 hy.le) hu.le
    have h8 : uu * (y / 2) ≤ uu * toR (c - b) := mul_le_mul_of_nonneg_left hy' hu.le
    linarith
  have hq2 : |toR (t - b) / toR (c - b)| ≤ 2 := by
    have := abs_add_le (toR (t - b) / toR (c - b) - f) f
    rw [sub_add_cancel, abs_of_nonneg hf0] at this
    linarith
  have h21 : (2:ℝ) ≤ 2 ^ (1023 : ℤ) := by
    have := zpow_le_zpow_right₀ (one_le_two (α := ℝ)) (show (1:ℤ) ≤ 1023 by norm_num)
    rwa [zpow_one] at this
  obtain ⟨n3, e3⟩ := toR_div n1 n2 hy'0.ne' (hq2.trans h21)
  refine ⟨n3, hf0, hf1, ?_, ?_⟩
  · change _ ≤ uu * _ + _ at e3
    have h9 : (2:ℝ) ^ (-1075 : ℤ) ≤ uu := by
      unfold uu; exact zpow_le_zpow_right₀ one_le_two (by norm_num)
    have h10 := abs_sub_le (toR ((t - b) / (c - b))) (toR (t - b) / toR (c - b)) f
    have h11 := mul_le_mul_of_nonneg_left hq2 hu.le
    linarith
  · intro heq
    have hf : f = 0 := by simp only [f]; rw [heq, sub_self, zero_div]
    rw [hf, zero_mul, mul_zero, sub_zero] at e1
    have h0 : toR (t - b) = 0 := abs_nonpos_iff.1 e1
    rw [h0, zero_div, abs_zero, mul_zero, zero_add, sub_zero, eta_half] at e3
    have hη := eta_pos
    have := abs_le.1 e3
    have m := n3.multR
    exact le_antisymm (m.le_of_lt ⟨0, by simp⟩ (by linarith)) (MultR.le_of_lt ⟨0, by simp⟩ m (by linarith))

theorem mix_err {p q g : F64} {f M : ℝ} (hp : F64.Num p) (hq : F64.Num q) (hg : F64.Num g) (bp : |toR p| ≤ M) (bq : |toR q| ≤ M)
    (h0 : 0 ≤ f) (h1 : f ≤ 1) (hf : |toR g - f| ≤ 8 * uu) (hM1 : 2 ^ (-500 : ℤ) ≤ M) (hM2 : M ≤ 2 ^ (500 : ℤ)) :
    F64.Num (p + g * (q - p)) ∧ |toR (p + g * (q - p)) - (toR p + f * (toR q - toR p))| ≤ 2 ^ (-47 : ℤ) * M ∧
      (toR g = 0 → toR (p + g * (q - p)) = toR p) := by
  have hu := uu_pos
  have hue : uu = 1 / 9007199254740992 := by unfold uu; exact u_small
  have hM0 : 0 < M := lt_of_lt_of_le (zpow_pos two_pos _) hM1
  have big : 8 * M ≤ 2 ^ (1023 : ℤ) := by
    have e : (2:ℝ) ^ (1023 : ℤ) = 2 ^ (523 : ℤ) * 2 ^ (500 : ℤ) := by rw [← zpow_add₀ two_ne_zero]; norm_num
    rw [e]
    have h8 : (8:ℝ) ≤ 2 ^ (523 : ℤ) := by
      have := zpow_le_zpow_right₀ (one_le_two (α := ℝ)) (show (3:ℤ) ≤ 523 by norm_num)
      refine le_trans ?_ this; norm_num
    exact mul_le_mul h8 hM2 hM0.le (by positivity)
  have hη : (2:ℝ) ^ (-1075 : ℤ) ≤ uu * M := by
    refine le_trans ?_ (mul_le_mul_of_nonneg_left hM1 hu.le)
    unfold uu
    rw [← zpow_add₀ two_ne_zero]
    exact zpow_le_zpow_right₀ one_le_two (by norm_num)
  have hqp : |toR q - toR p| ≤ 2 * M := (abs_sub _ _).trans (by linarith)
  obtain ⟨n1, e1⟩ := toR_sub hq hp (hqp.trans (le_trans (by linarith only [hM0]) big))
  change _ ≤ uu * _ at e1
  set w := toR (q - p) with hw
  have e1' : |w - (toR q - toR p)| ≤ uu * (2 * M) := e1.trans (mul_le_mul_of_nonneg_left hqp hu.le)
  have hw3 : |w| ≤ 2 * M + uu * (2 * M) := by
    have := abs_add_le (w - (toR q - toR p)) (toR q - toR p)
    rw [sub_add_cancel] at this
    linarith
  have hw4 : |w| ≤ 5 / 2 * M := by rw [hue] at hw3; linarith
  have hg2 : |toR g| ≤ 11 / 10 := by
    have := abs_add_le (toR g - f) f
    rw [sub_add_cancel, abs_of_nonneg h0] at this
    rw [hue] at hf
    linarith
  have hgw : |toR g * w| ≤ 3 * M := by
    rw [abs_mul]
    have := mul_le_mul hg2 hw4 (abs_nonneg _) (by norm_num)
    linarith
  obtain ⟨n2, e2⟩ := toR_mul hg n1 (hgw.trans (le_trans (by linarith only [hM0]) big))
  rw [← hw] at e2
  change _ ≤ uu * _ + _ at e2
  set v := toR (g * (q - p)) with hv
  have e2' : |v - toR g * w| ≤ 4 * uu * M := by
    have := mul_le_mul_of_nonneg_left hgw hu.le
    linarith
  have hv4 : |v| ≤ 4 * M := by
    have := abs_add_le (v - toR g * w) (toR g * w)
    rw [sub_add_cancel] at this
    rw [hue] at e2'
    linarith
  have hpv : |toR p + v| ≤ 5 * M := (abs_add_le _ _).trans (by linarith)
  obtain ⟨n3, e3⟩ := toR_add hp n2 (hpv.trans (le_trans (by linarith only [hM0]) big))
  rw [← hv] at e3
  change _ ≤ uu * _ at e3
  refine ⟨n3, ?_, ?_⟩
  · have e3' := e3.trans (mul_le_mul_of_nonneg_left hpv hu.le)
    have h47 : (2:ℝ) ^ (-47 : ℤ) = 64 * uu := by rw [hue]; norm_num
    rw [h47]
    have a1 : |toR g * w - f * (toR q - toR p)| ≤ 8 * uu * (5 / 2 * M) + 1 * (uu * (2 * M)) := by
      have e : toR g * w - f * (toR q - toR p) = (toR g - f) * w + f * (w - (toR q - toR p)) := by ring
      rw [e]
      refine (abs_add_le _ _).trans (add_le_add ?_ ?_)
      · rw [abs_mul]; exact mul_le_mul hf hw4 (abs_nonneg _) (by positivity)
      · rw [abs_mul, abs_of_nonneg h0]; exact mul_le_mul h1 e1' (abs_nonneg _) (by norm_num)
    have a2 := abs_add_three (toR (p + g * (q - p)) - (toR p + v)) (v - toR g * w) (toR g * w - f * (toR q - toR p))
    have e : toR (p + g * (q - p)) - (toR p + v) + (v - toR g * w) + (toR g * w - f * (toR q - toR p))
        = toR (p + g * (q - p)) - (toR p + f * (toR q - toR p)) := by ring
    rw [e] at a2
    have : 0 < uu * M := by positivity
    linarith
  · intro hz
    rw [hz, zero_mul, abs_zero, mul_zero, zero_add, sub_zero, eta_half] at e2
    have hη' := eta_pos
    have := abs_le.1 e2
    have m : MultR v := n2.multR
    have v0 : v = 0 := le_antisymm (m.le_of_lt ⟨0, by simp⟩ (by linarith)) (MultR.le_of_lt ⟨0, by simp⟩ m (by linarith))
    rw [v0, add_zero] at e3
    -- the sum is a double already
    have k1 := key_add_le hp n2 hp (by rw [← hv, v0, add_zero])
    have k2 := le_key_add hp n2 hp (by rw [← hv, v0, add_zero])
    rw [n3.key, hp.key, EReal.coe_le_coe_iff] at k1 k2
    exact le_antisymm k1 k2

theorem take_pairSum : ∀ (k : Nat) (l : List (Point2D F64)),
    pairSum segLen2 ((l.map Point2D.real).take (k + 1)) = ((List.zipWith segF2 l l.tail).take k).sum
  | 0, [] => by simp [pairSum]
  | 0, [a] => by simp [pairSum]
  | 0, a :: b :: l => by simp [pairSum]
  | k + 1, [] => by simp [pairSum]
  | k + 1, [a] => by simp [pairSum]
  | k + 1, a :: b :: l => by
    have ih := take_pairSum k (b :: l)
    simp only [List.map_cons, List.take_succ_cons, List.tail_cons, List.zipWith_cons_cons, List.sum_cons] at ih ⊢
    rw [pairSum, ih]
    rfl

theorem take_sum_le {rs : List ℝ} (h : ∀ x ∈ rs, 0 ≤ x) (k : Nat) : 0 ≤ (rs.take k).sum ∧ (rs.take k).sum ≤ rs.sum := by
  refine ⟨List.sum_nonneg fun x hx => h x (List.mem_of_mem_take hx), ?_⟩
  have e : (rs.take k).sum + (rs.drop k).sum = rs.sum := by rw [← List.sum_append, List.take_append_drop]
  have := List.sum_nonneg fun x (hx : x ∈ rs.drop k) => h x (List.mem_of_mem_drop hx)
  linarith

/-- the computed length after `k` segments -/
theorem distAt_err (l : List (Point2D F64)) (hN : l.length ≤ 2 ^ 40)
    (hc : ∀ c ∈ l, ∀ d, F64.Num (at2 c d) ∧ |toR (at2 c d)| ≤ 2 ^ (500 : ℤ))
    (hL : 2 ^ (-400 : ℤ) ≤ pairSum segLen2 (l.map Point2D.real)) (k : Nat) :
    let L := pairSum segLen2 (l.map Point2D.real)
    F64.Num (distAt l Scalar.zero k) ∧
      |toR (distAt l Scalar.zero k) - pairSum segLen2 ((l.map Point2D.real).take (k + 1))| ≤ (l.length + 2) * 2 ^ (-50 : ℤ) * L ∧
      0 ≤ pairSum segLen2 ((l.map Point2D.real).take (k + 1)) ∧ pairSum segLen2 ((l.map Point2D.real).take (k + 1)) ≤ L ∧
      L ≤ 2 ^ (640 : ℤ) := by
  intro L
  have e : L = (List.zipWith segF2 l l.tail).sum := by
    have := take_pairSum l.length l
    rw [List.take_of_length_le (by simp), List.take_of_length_le (by simp)] at this
    exact this
  have h0 := zip_all (g := segF2) l l.tail fun _ _ => Real.sqrt_nonneg _
  obtain ⟨p0, p1⟩ := take_sum_le h0 k
  rw [← e] at p1
  rw [take_pairSum]
  have hacc : List.Forall₂ (fun d r => F64.Num d ∧ 0 ≤ r ∧ r ≤ 2 ^ (600 : ℤ) ∧
      |toR d - r| ≤ 2 ^ (-50 : ℤ) * r + 2 ^ (-536 : ℤ)) (segDists l) (List.zipWith segF2 l l.tail) := zip_forall₂ (f := fun a b : Point2D F64 => b.dist a) (g := segF2) l l.tail fun a ha b hb =>
    seg_acc_2d (hc a ha) (hc b (List.mem_of_mem_tail hb))
  have hlen : (segDists l).length ≤ l.length := by
    unfold segDists; rw [List.length_zipWith]; exact min_le_left _ _
  have hlen2 : ((segDists l).take k).length ≤ l.length := by
    rw [List.length_take]; exact (min_le_right _ _).trans hlen
  have h := sum_acc _ _ (List.forall₂_take k hacc) (hlen2.trans (hN.trans (by norm_num)))
  have hnr : (l.length : ℝ) ≤ 2 ^ 40 := by exact_mod_cast hN
  refine ⟨h.1, ?_, p0, p1, ?_⟩
  · refine (h.2.trans (bound_mono hlen2 p0)).trans ?_
    have a1 : ((l.length : ℝ) + 1) * 2 ^ (-50 : ℤ) * ((List.zipWith segF2 l l.tail).take k).sum ≤ (l.length + 1) * 2 ^ (-50 : ℤ) * L :=
      mul_le_mul_of_nonneg_left p1 (by positivity)
    have a2 : (l.length : ℝ) * 2 ^ (-535 : ℤ) ≤ 2 ^ (-50 : ℤ) * L := by
      have b1 : (l.length : ℝ) * 2 ^ (-535 : ℤ) ≤ 2 ^ (40 : ℤ) * 2 ^ (-535 : ℤ) :=
        mul_le_mul_of_nonneg_right (by exact_mod_cast hN) (by positivity)
      have b2 : (2:ℝ) ^ (-50 : ℤ) * 2 ^ (-400 : ℤ) ≤ 2 ^ (-50 : ℤ) * L := mul_le_mul_of_nonneg_left hL (by positivity)
      refine b1.trans (le_trans ?_ b2)
      rw [← zpow_add₀ two_ne_zero, ← zpow_add₀ two_ne_zero]
      exact zpow_le_zpow_right₀ one_le_two (by norm_num)
    generalize (2:ℝ) ^ (-50 : ℤ) = ε at *
    linarith only [a1, a2]
  · have key : ∀ rs : List ℝ, (∀ r ∈ rs, r ≤ 2 ^ (600 : ℤ)) → rs.sum ≤ rs.length * 2 ^ (600 : ℤ) := by
      intro rs
      induction rs with
      | nil => simp
      | cons r rs ih =>
        intro h
        have h1 := ih fun x hx => h x (by simp [hx])
        have h2 := h r (by simp)
        simp only [List.sum_cons, List.length_cons]
        push_cast
        linarith only [h1, h2]
    have hr : ∀ r ∈ List.zipWith segF2 l l.tail, r ≤ 2 ^ (600 : ℤ) := by
      have : ∀ (ds : List F64) (rs : List ℝ), List.Forall₂ (fun d r => F64.Num d ∧ 0 ≤ r ∧ r ≤ 2 ^ (600 : ℤ) ∧
          |toR d - r| ≤ 2 ^ (-50 : ℤ) * r + 2 ^ (-536 : ℤ)) ds rs → ∀ r ∈ rs, r ≤ 2 ^ (600 : ℤ) := by
        intro ds rs h
        induction h with
        | nil => simp
        | cons h1 _ ih => simpa using ⟨h1.2.2.1, ih⟩
      exact this _ _ hacc
    have := key _ hr
    rw [e]
    refine this.trans ?_
    have h3 : ((List.zipWith segF2 l l.tail).length : ℝ) ≤ 2 ^ (40 : ℤ) := by
      have : (List.zipWith segF2 l l.tail).length ≤ l.length := by
        rw [List.length_zipWith]; exact min_le_left _ _
      exact_mod_cast this.trans hN
    refine (mul_le_mul_of_nonneg_right h3 (by positivity)).trans ?_
    rw [← zpow_add₀ two_ne_zero]
    norm_num

/-- the distances to reach -/
theorem target_err {T : F64} {i n : Nat} (hT : F64.Num T) (h1 : 2 ^ (-401 : ℤ) ≤ toR T) (h2 : toR T ≤ 2 ^ (700 : ℤ)) (hn : 2 ≤ n)
    (hn2 : n ≤ 2 ^ 40) (hi : i < n) :
    let t := (Scalar.lit (i : ℚ) : F64) * (T / Scalar.lit ((n - 1 : Nat) : ℚ))
    F64.Num t ∧ 0 ≤ toR t ∧ |toR t - i * (toR T / (n - 1))| ≤ 4 * uu * toR T ∧ (i + 1 < n → toR t ≤ toR T) ∧
      (i = 0 → toR t = 0) := by
  intro t
  have hu := uu_pos
  have hue : uu = 1 / 9007199254740992 := by unfold uu; exact u_small
  obtain ⟨m1, m2⟩ := lit_nat (k := n - 1) (by omega)
  obtain ⟨i1, i2⟩ := lit_nat (k := i) (by omega)
  have hc : ((n - 1 : Nat) : ℝ) = n - 1 := by
    rw [Nat.cast_sub (by omega)]; simp
  rw [hc] at m2
  have hT0 : 0 < toR T := lt_of_lt_of_le (zpow_pos two_pos _) h1
  have hn1 : (1:ℝ) ≤ n - 1 := by
    have : (2:ℝ) ≤ n := by exact_mod_cast hn
    linarith
  have hn40 : (n:ℝ) ≤ 2 ^ 40 := by exact_mod_cast hn2
  have hin : (i:ℝ) ≤ n - 1 := by
    have : (i:ℝ) + 1 ≤ n := by exact_mod_cast hi
    linarith
  have hi0 : (0:ℝ) ≤ i := Nat.cast_nonneg _
  set m : ℝ := n - 1 with hm
  have hm0 : 0 < m := by linarith
  have hq0 : 0 ≤ toR T / m := by positivity
  have hq1 : toR T / m ≤ toR T := div_le_self hT0.le hn1
  have big : 4 * toR T ≤ 2 ^ (1023 : ℤ) := by
    have e : (2:ℝ) ^ (1023 : ℤ) = 2 ^ (323 : ℤ) * 2 ^ (700 : ℤ) := by rw [← zpow_add₀ two_ne_zero]; norm_num
    rw [e]
    have h8 : (4:ℝ) ≤ 2 ^ (323 : ℤ) := by
      have := zpow_le_zpow_right₀ (one_le_two (α := ℝ)) (show (2:ℤ) ≤ 323 by norm_num)
      refine le_trans ?_ this; norm_num
    exact mul_le_mul h8 h2 hT0.le (by positivity)
  obtain ⟨n1, e1⟩ := toR_div hT m1 (by rw [m2]; exact hm0.ne') (by
    rw [m2, abs_of_nonneg hq0]; exact hq1.trans (le_trans (by linarith only [hT0]) big))
  rw [m2, abs_of_nonneg hq0] at e1
  change _ ≤ uu * _ + _ at e1
  -- the underflow is small
  have hη : (2:ℝ) ^ (-1075 : ℤ) * 2 ^ 40 ≤ uu * (toR T / 2 ^ 60) := by
    have : (2:ℝ) ^ (-1075 : ℤ) * 2 ^ 40 ≤ uu * (2 ^ (-401 : ℤ) / 2 ^ 60) := by
      unfold uu
      rw [show (2:ℝ) ^ 40 = 2 ^ (40 : ℤ) from (zpow_natCast _ 40).symm, show (2:ℝ) ^ 60 = 2 ^ (60 : ℤ) from (zpow_natCast _ 60).symm,
        ← zpow_add₀ two_ne_zero, ← zpow_sub₀ two_ne_zero, ← zpow_add₀ two_ne_zero]
      exact zpow_le_zpow_right₀ one_le_two (by norm_num)
    refine this.trans ?_
    gcongr
  set d := toR (T / Scalar.lit ((n - 1 : Nat) : ℚ)) with hd
  have hη0 : (0:ℝ) < 2 ^ (-1075 : ℤ) := zpow_pos two_pos _
  have hηe := eta_half
  have hz : (i:ℝ) * (toR T / m) = toR T * (i / m) := by ring
  have him : (i:ℝ) / m ≤ 1 := (div_le_one hm0).2 hin
  have him0 : 0 ≤ (i:ℝ) / m := by positivity
  have hz1 : (i:ℝ) * (toR T / m) ≤ toR T := by
    rw [hz]; exact mul_le_of_le_one_right hT0.le him
  have hz0 : 0 ≤ (i:ℝ) * (toR T / m) := by positivity
  have hi40 : (i:ℝ) ≤ 2 ^ 40 := by linarith
  have e1' : |i * d - i * (toR T / m)| ≤ uu * (i * (toR T / m)) + 2 ^ (-1075 : ℤ) * 2 ^ 40 := by
    rw [← mul_sub, abs_mul, abs_of_nonneg hi0]
    have a1 := mul_le_mul_of_nonneg_left e1 hi0
    have a2 := mul_le_mul_of_nonneg_right hi40 hη0.le
    linarith only [a1, a2]
  set z := (i:ℝ) * (toR T / m) with hzd
  have hw : |i * d| ≤ z + uu * z + uu * (toR T / 2 ^ 60) := by
    have := abs_add_le (i * d - z) z
    rw [sub_add_cancel, abs_of_nonneg hz0] at this
    linarith only [this, e1', hη]
  have hw2 : |i * d| ≤ 2 * toR T := by
    refine hw.trans ?_
    rw [hue]
    norm_num at *
    linarith only [hz1, hT0]
  obtain ⟨n2, e2⟩ := toR_mul i1 n1 (by rw [i2]; exact hw2.trans (le_trans (by linarith only [hT0]) big))
  rw [i2, ← hd] at e2
  change |toR t - _| ≤ uu * _ + _ at e2
  have hu2 : uu * |i * d| ≤ uu * (z + uu * z + uu * (toR T / 2 ^ 60)) := mul_le_mul_of_nonneg_left hw hu.le
  have hηs : (2:ℝ) ^ (-1075 : ℤ) ≤ 2 ^ (-1075 : ℤ) * 2 ^ 40 := le_mul_of_one_le_right hη0.le (by norm_num)
  have main : |toR t - z| ≤ (2 * uu + uu * uu) * z + 3 * (uu * (toR T / 2 ^ 60)) := by
    have := abs_sub_le (toR t) (i * d) z
    have h3 : uu * (uu * (toR T / 2 ^ 60)) ≤ 1 * (uu * (toR T / 2 ^ 60)) :=
      mul_le_mul_of_nonneg_right (by rw [hue]; norm_num) (by positivity)
    linarith only [this, e2, hu2, e1', hη, hηs, h3]
  have hd0 : 0 ≤ d := by
    have := (abs_le.1 e1).1
    have hη1 := eta_pos
    refine MultR.le_of_lt ⟨0, by simp⟩ n1.multR ?_
    have h4 : uu * (toR T / m) ≤ toR T / m := by
      have := mul_le_mul_of_nonneg_right (show uu ≤ 1 by rw [hue]; norm_num) hq0
      linarith only [this]
    linarith only [this, h4, hηe, hη1]
  refine ⟨n2, ?_, ?_, ?_, ?_⟩
  · refine MultR.le_of_lt ⟨0, by simp⟩ n2.multR ?_
    have := (abs_le.1 e2).1
    have h4 : 0 ≤ (i:ℝ) * d := mul_nonneg hi0 hd0
    rw [abs_of_nonneg h4] at this
    have h5 : uu * (i * d) ≤ i * d := by
      have := mul_le_mul_of_nonneg_right (show uu ≤ 1 by rw [hue]; norm_num) h4
      linarith only [this]
    have hη1 := eta_pos
    change 0 < toR t + _
    linarith only [this, h5, hηe, hη1]
  · refine main.trans ?_
    have h6 : (2 * uu + uu * uu) * z ≤ 3 * uu * toR T := by
      have : (2 * uu + uu * uu) ≤ 3 * uu := by
        have := mul_le_mul_of_nonneg_right (show uu ≤ 1 by rw [hue]; norm_num) hu.le
        linarith only [this]
      exact mul_le_mul this hz1 hz0 (by positivity)
    have h7 : uu * (toR T / 2 ^ 60) * 2 ^ 60 = uu * toR T := by field_simp
    have : 0 < uu * toR T := by positivity
    norm_num at h7 ⊢
    linarith only [h6, h7, this]
  · intro hi2
    have h8 : (i:ℝ) + 1 ≤ m := by
      have : (i:ℝ) + 1 + 1 ≤ n := by exact_mod_cast hi2
      rw [hm]; linarith
    have h9 : z ≤ toR T - toR T / 2 ^ 40 := by
      have : z = toR T * (i / m) := hz
      have h10 : (i:ℝ) / m ≤ 1 - 1 / 2 ^ 40 := by
        rw [div_le_iff₀ hm0]
        have : m / 2 ^ 40 ≤ 1 := (div_le_one (by positivity)).2 (by rw [hm]; linarith)
        have e : (1 - 1 / 2 ^ 40) * m = m - m / 2 ^ 40 := by ring
        rw [e]
        linarith
      rw [this]
      have := mul_le_mul_of_nonneg_left h10 hT0.le
      linarith
    have := (abs_le.1 main).2
    have h6 : (2 * uu + uu * uu) * z ≤ 3 * uu * toR T := by
      have : (2 * uu + uu * uu) ≤ 3 * uu := by
        have := mul_le_mul_of_nonneg_right (show uu ≤ 1 by rw [hue]; norm_num) hu.le
        linarith only [this]
      exact mul_le_mul this hz1 hz0 (by positivity)
    rw [hue] at *
    norm_num at *
    linarith only [this, h6, h9, hT0]
  · intro h0
    rw [h0, Nat.cast_zero, zero_mul, abs_zero, mul_zero, zero_add, sub_zero, hηe] at e2
    have hη1 := eta_pos
    have := abs_le.1 e2
    have mm := n2.multR
    change toR t = 0
    exact le_antisymm (mm.le_of_lt ⟨0, by simp⟩ (by linarith only [this.2, hη1])) (MultR.le_of_lt ⟨0, by simp⟩ mm (by linarith only [this.1, hη1]))

/-- what the interpolations of doubles have in common: whatever is done with the two neighbours `a` and `b` and the fraction `g` of
the way between them, `g` belongs to a point of the polyline with the requested distance -/
theorem interpolation_f64 (p q : Point2D F64) (t : List (Point2D F64)) (n : Nat)
    (build : F64 → Point2D F64 → Point2D F64 → Point2D F64)
    (hN : (p :: q :: t).length ≤ 2 ^ 40) (hn : 2 ≤ n) (hn2 : n ≤ 2 ^ 40)
    (hc' : ∀ c ∈ p :: q :: t, ∀ d, F64.Num (at2 c d) ∧ |toR (at2 c d)| ≤ 2 ^ (500 : ℤ)) (hd : 2 ^ (-400 : ℤ) ≤ segLen2 p.real q.real) :
    let base := p :: q :: t
    let L := pairSum segLen2 (base.map Point2D.real)
    ∃ pts, (List.range n).filterMap (fun (i : Nat) =>
        walk (Scalar.lit (i : ℚ) * (PointCloud2D.length ⟨base⟩ / Scalar.lit ((n - 1 : Nat) : ℚ))) build Scalar.zero base) = pts ∧
      (pts.length = n ∨ pts.length + 1 = n) ∧
      ∀ (i : Nat) r, pts[i]? = some r → ∃ a ∈ base, ∃ b ∈ base, ∃ g f s, r = build g a b ∧ F64.Num g ∧ 0 ≤ f ∧ f ≤ 1 ∧
        |toR g - f| ≤ 8 * uu ∧ Walk (base.map Point2D.real) s a.real b.real f ∧
        |s - i * (L / (n - 1))| ≤ (base.length + 2) * 2 ^ (-47 : ℤ) * L ∧ (i = 0 → a = p ∧ toR g = 0) := by
  intro base L
  have hL0 : 2 ^ (-400 : ℤ) ≤ L := by
    have : L = segLen2 p.real q.real + pairSum segLen2 ((q :: t).map Point2D.real) := rfl
    have h2 := pairSum_nonneg ((q :: t).map Point2D.real)
    rw [this]
    generalize (2:ℝ) ^ (-400 : ℤ) = e at *
    linarith
  have hacc := distAt_err base hN hc' hL0
  have hL1 : 0 < L := lt_of_lt_of_le (zpow_pos two_pos _) hL0
  set E := ((base.length : ℝ) + 2) * 2 ^ (-50 : ℤ) * L with hE
  have hnr : (base.length : ℝ) ≤ 2 ^ 40 := by exact_mod_cast hN
  have hE0 : 2 ^ (-50 : ℤ) * L ≤ E := by
    rw [hE]
    have : (0:ℝ) ≤ base.length := Nat.cast_nonneg _
    have h2 : 0 < (2:ℝ) ^ (-50 : ℤ) * L := by positivity
    nlinarith
  have hE1 : E ≤ L / 4 := by
    rw [hE]
    have : ((base.length : ℝ) + 2) * 2 ^ (-50 : ℤ) ≤ 1 / 4 := by
      rw [show (2:ℝ) ^ 40 = 1099511627776 by norm_num] at hnr
      norm_num
      linarith only [hnr]
    have := mul_le_mul_of_nonneg_right this hL1.le
    linarith
  have hE2 : 0 < E := lt_of_lt_of_le (by positivity) hE0
  -- the total length
  set T := distAt base Scalar.zero base.length with hT
  have hTlen : PointCloud2D.length ⟨base⟩ = T := by
    rw [length_fold_2d, hT]
    unfold distAt
    rw [List.take_of_length_le]
    · rfl
    · unfold segDists; rw [List.length_zipWith]; exact min_le_left _ _
  obtain ⟨hTn, hTe, -, -, hL2⟩ := hacc base.length
  rw [List.take_of_length_le (by simp)] at hTe
  change |toR T - L| ≤ E at hTe
  have hTe' := abs_le.1 hTe
  have hT1 : 2 ^ (-401 : ℤ) ≤ toR T := by
    have e : (2:ℝ) ^ (-401 : ℤ) = 2 ^ (-400 : ℤ) / 2 := by
      rw [show (-401 : ℤ) = -400 - 1 by norm_num, zpow_sub_one₀ two_ne_zero]; rfl
    rw [e]
    generalize (2:ℝ) ^ (-400 : ℤ) = e at *
    linarith
  have hT2' : toR T ≤ 2 * L := by linarith
  have hT2 : toR T ≤ 2 ^ (700 : ℤ) := by
    refine (show toR T ≤ 2 ^ (1:ℤ) * L by rw [zpow_one]; exact hT2').trans ?_
    refine (mul_le_mul_of_nonneg_left hL2 (by positivity)).trans ?_
    rw [← zpow_add₀ two_ne_zero]
    exact zpow_le_zpow_right₀ one_le_two (by norm_num)
  have hbase2 : ¬ base.length < 2 := by simp [base]
  have hn0 : ¬ n = 0 := by omega
  let W : Nat → Option (Point2D F64) := fun i =>
    walk (Scalar.lit (i : ℚ) * (T / Scalar.lit ((n - 1 : Nat) : ℚ))) build Scalar.zero base
  rw [hTlen]
  have hz : toR (Scalar.zero : F64) = 0 := toR_zero
  have hm0 : (0:ℝ) < (n:ℝ) - 1 := by
    have : (2:ℝ) ≤ n := by exact_mod_cast hn
    linarith
  have first : 0 < toR (distAt base Scalar.zero 1) := by
    have acc := seg_acc_2d (hc' p (by simp)) (hc' q (by simp))
    have k5 := le_key_add num_zero acc.1 acc.1 (by rw [hz, zero_add])
    have nC : F64.Num ((Scalar.zero : F64) + q.dist p) := (hacc 1).1
    rw [nC.key, acc.1.key, EReal.coe_le_coe_iff] at k5
    change _ ≤ toR (distAt base Scalar.zero 1) at k5
    have h6 := (abs_le.1 acc.2.2.2).1
    have hd' : 2 ^ (-400 : ℤ) ≤ segF2 p q := hd
    have h7 : 2 ^ (-50 : ℤ) * segF2 p q ≤ segF2 p q / 4 := by
      have : 0 ≤ segF2 p q := acc.2.1
      norm_num
      linarith
    have h8 : (2:ℝ) ^ (-536 : ℤ) ≤ 2 ^ (-400 : ℤ) / 4 := by
      have e : (2:ℝ) ^ (-400 : ℤ) / 4 = 2 ^ (-402 : ℤ) := by
        rw [show (4:ℝ) = 2 ^ (2:ℤ) by norm_num, ← zpow_sub₀ two_ne_zero]; norm_num
      rw [e]; exact zpow_le_zpow_right₀ one_le_two (by norm_num)
    have h9 : (0:ℝ) < 2 ^ (-400 : ℤ) := zpow_pos two_pos _
    generalize (2:ℝ) ^ (-400 : ℤ) = x at *
    generalize (2:ℝ) ^ (-536 : ℤ) = y at *
    generalize (2:ℝ) ^ (-50 : ℤ) * segF2 p q = w at *
    linarith only [k5, h6, h7, h8, h9, hd']
  -- what is found
  have found : ∀ i < n, ∀ r, W i = some r → ∃ a ∈ base, ∃ b ∈ base, ∃ g f s, r = build g a b ∧ F64.Num g ∧ 0 ≤ f ∧ f ≤ 1 ∧
        |toR g - f| ≤ 8 * uu ∧ Walk (base.map Point2D.real) s a.real b.real f ∧
        |s - i * (L / (n - 1))| ≤ (base.length + 2) * 2 ^ (-47 : ℤ) * L ∧ (i = 0 → a = p ∧ toR g = 0) := by
    intro i hi r hr
    obtain ⟨t1, t2, t3, -, t5⟩ := target_err hTn hT1 hT2 hn hn2 hi
    have hw := walk_find _ t1 build base Scalar.zero (fun k => (hacc k).1) (by rw [hz]; exact t2)
    rw [show walk (Scalar.lit (i : ℚ) * (T / Scalar.lit ((n - 1 : Nat) : ℚ))) build Scalar.zero base = some r from hr] at hw
    obtain ⟨k, a, b, ka, kb, kr, k1, k2, k3⟩ := hw
    set tt := (Scalar.lit (i : ℚ) : F64) * (T / Scalar.lit ((n - 1 : Nat) : ℚ)) with htt
    obtain ⟨nb, eb, b0, b1, -⟩ := hacc k
    obtain ⟨nc, ec, c0, c1, -⟩ := hacc (k + 1)
    change |_| ≤ E at eb
    change |_| ≤ E at ec
    have hbe := abs_le.1 eb
    have hce := abs_le.1 ec
    have ham := List.mem_of_getElem? ka
    have hbm := List.mem_of_getElem? kb
    -- the next segment
    have hstep : pairSum segLen2 ((base.map Point2D.real).take (k + 1 + 1))
        = pairSum segLen2 ((base.map Point2D.real).take (k + 1)) + segLen2 a.real b.real := by
      rw [take_pairSum, take_pairSum]
      have : (List.zipWith segF2 base base.tail)[k]? = some (segF2 a b) := by
        rw [List.getElem?_zipWith, ka, List.getElem?_tail, kb]
      rw [List.take_add_one, this, List.sum_append]
      simp [segF2, segLen2]
    set P := pairSum segLen2 ((base.map Point2D.real).take (k + 1)) with hP
    rw [hstep] at ec hce c0 c1
    set B := toR (distAt base Scalar.zero k) with hB
    set C := toR (distAt base Scalar.zero (k + 1)) with hC
    have hBC : B < C := by
      rcases Nat.eq_zero_or_pos k with rfl | hk
      · have hB0 : B = 0 := hz
        rw [hB0]
        exact first
      · exact lt_of_lt_of_le (k3 k hk le_rfl) k2
    have hsize : C - B ≤ 2 ^ (1023 : ℤ) := by
      have h1 : C - B ≤ 2 ^ (1:ℤ) * L := by
        rw [zpow_one]
        linarith only [hbe.1, hce.2, c1, hE1, hL1, b0]
      refine h1.trans ((mul_le_mul_of_nonneg_left hL2 (by positivity)).trans ?_)
      rw [← zpow_add₀ two_ne_zero]
      exact zpow_le_zpow_right₀ one_le_two (by norm_num)
    obtain ⟨fn, f0, f1, fe, fz⟩ := frac_err t1 nb nc k1 k2 hBC hsize
    set f := (toR tt - B) / (C - B) with hf
    refine ⟨a, ham, b, hbm, _, f, P + f * segLen2 a.real b.real, kr, fn, f0, f1, fe, ⟨k, by simp [ka], by simp [kb], f0, f1, rfl⟩, ?_, ?_⟩
    · have hx : toR tt - B = f * (C - B) := by
        rw [hf]; field_simp [sub_ne_zero.2 hBC.ne']
      have e1 : P + f * segLen2 a.real b.real - toR tt = (P - B) + f * (segLen2 a.real b.real - (C - B)) := by
        linear_combination -hx
      have h1 : |segLen2 a.real b.real - (C - B)| ≤ 2 * E := by
        rw [abs_le]; constructor <;> linarith only [hbe.1, hbe.2, hce.1, hce.2]
      have h2 : |P + f * segLen2 a.real b.real - toR tt| ≤ 3 * E := by
        rw [e1]
        refine (abs_add_le _ _).trans ?_
        rw [abs_mul, abs_of_nonneg f0, abs_sub_comm P B]
        have := mul_le_mul f1 h1 (abs_nonneg _) zero_le_one
        linarith only [this, eb]
      have hin : (i:ℝ) ≤ n - 1 := by
        have : (i:ℝ) + 1 ≤ n := by exact_mod_cast hi
        linarith
      have h3 : |(i:ℝ) * (toR T / (n - 1)) - i * (L / (n - 1))| ≤ E := by
        have e : (i:ℝ) * (toR T / (n - 1)) - i * (L / (n - 1)) = (i / (n - 1)) * (toR T - L) := by ring
        rw [e, abs_mul, abs_of_nonneg (div_nonneg (Nat.cast_nonneg _) hm0.le)]
        have := mul_le_mul ((div_le_one hm0).2 hin) hTe (abs_nonneg _) zero_le_one
        linarith only [this]
      have h4 : 4 * uu * toR T ≤ E := by
        refine le_trans ?_ hE0
        have h50 : (2:ℝ) ^ (-50 : ℤ) = 8 * uu := by unfold uu; rw [u_small]; norm_num
        rw [h50]
        have := mul_le_mul_of_nonneg_left hT2' uu_pos.le
        linarith only [this]
      have h5 := abs_sub_le (P + f * segLen2 a.real b.real) (toR tt) (i * (L / (n - 1)))
      have h6 := abs_sub_le (toR tt) (i * (toR T / (n - 1))) (i * (L / (n - 1)))
      have e8 : ((base.length : ℝ) + 2) * 2 ^ (-47 : ℤ) * L = 8 * E := by
        rw [hE, show (-47 : ℤ) = 3 + -50 by norm_num, zpow_add₀ two_ne_zero]; norm_num; ring
      rw [e8]
      linarith only [h2, h3, h4, h5, h6, t3, hE2]
    · intro hi0
      have htt0 : toR tt = 0 := t5 hi0
      have hk : k = 0 := by
        by_contra hk
        have := k3 1 one_pos (by omega)
        linarith only [this, first, htt0]
      subst hk
      have ha : a = p := by simpa [base] using ka.symm
      have hB0 : B = 0 := hz
      have g0 := fz (by rw [htt0]; exact hB0.symm)
      exact ⟨ha, g0⟩
  -- all but the last are found
  have all : ∀ i, i + 1 < n → ∃ r, W i = some r := by
    intro i hi
    obtain ⟨t1, t2, t3, t4, -⟩ := target_err hTn hT1 hT2 hn hn2 (i := i) (by omega)
    have hw := walk_find _ t1 build base Scalar.zero (fun k => (hacc k).1) (by rw [hz]; exact t2)
    cases hW : W i with
    | some r => exact ⟨r, rfl⟩
    | none =>
      rw [show walk (Scalar.lit (i : ℚ) * (T / Scalar.lit ((n - 1 : Nat) : ℚ))) build Scalar.zero base = none from hW] at hw
      rcases hw with hw | hw
      · exact absurd (t4 hi) (not_le.2 hw)
      · exact absurd hw hbase2
  have : Nonempty (Point2D F64) := ⟨p⟩
  choose! g hg using all
  obtain ⟨m, rfl⟩ : ∃ m, n = m + 1 := ⟨n - 1, by omega⟩
  have hsplit : (List.range (m + 1)).filterMap W = (List.range m).map g ++ (W m).toList := by
    rw [List.range_succ, List.filterMap_append, getElem?_filterMap_range W g m fun i hi => hg i (by omega)]
    congr 1
  refine ⟨_, rfl, ?_, ?_⟩
  · change ((List.range (m + 1)).filterMap W).length = m + 1 ∨ ((List.range (m + 1)).filterMap W).length + 1 = m + 1
    rw [hsplit]
    cases hW : W m <;> simp
  · intro i r hr
    change ((List.range (m + 1)).filterMap W)[i]? = some r at hr
    have hW : i < m + 1 ∧ W i = some r := by
      rw [hsplit] at hr
      by_cases hi : i < m
      · rw [List.getElem?_append_left (by simpa using hi)] at hr
        have : g i = r := by simpa [List.getElem?_eq_getElem, hi] using hr
        exact ⟨by omega, by rw [← this]; exact hg i (by omega)⟩
      · rw [List.getElem?_append_right (by simpa using hi)] at hr
        simp only [List.length_map, List.length_range] at hr
        have hlt := (List.getElem?_eq_some_iff.1 hr).1
        have h1 : (W m).toList.length ≤ 1 := by cases W m <;> simp
        have : i = m := by omega
        subst this
        refine ⟨by omega, ?_⟩
        rw [Nat.sub_self] at hr
        cases hW : W i with
        | none => rw [hW] at hr; simp at hr
        | some x => rw [hW] at hr; simpa using hr
    exact found i hW.1 r hW.2

/-- **C78** (partial: see `c78_violated_last`) `interpolation_linear` with doubles: for a polyline of at most `2^40`
points with coordinates of at most `M ≤ 2^500`, a first segment of at least `2^-400` and between 2 and `2^40` requested
points, all requested points except possibly the last one are returned, no other ones; the first one is the first point
of the polyline; the `i`-th one is, up to `2^-47 M` per coordinate, the point after the distance `i / (n - 1)` of the
length of the polyline along it, where the distance is kept up to a relative error of `N 2^-47` of the length of
the polyline -/
theorem c78_linear_f64_partial (p q : Point2D F64) (t : List (Point2D F64)) (n : Nat) (M : ℝ)
    (hN : (p :: q :: t).length ≤ 2 ^ 40) (hn : 2 ≤ n) (hn2 : n ≤ 2 ^ 40) (hM1 : 2 ^ (-500 : ℤ) ≤ M) (hM2 : M ≤ 2 ^ (500 : ℤ))
    (hc : ∀ c ∈ p :: q :: t, ∀ d, F64.Num (at2 c d) ∧ |toR (at2 c d)| ≤ M) (hd : 2 ^ (-400 : ℤ) ≤ segLen2 p.real q.real) :
    let base := p :: q :: t
    let L := pairSum segLen2 (base.map Point2D.real)
    ∃ pts, interpolationLinear base n = some (.ok pts) ∧ (pts.length = n ∨ pts.length + 1 = n) ∧
      (∃ r, pts.head? = some r ∧ r.real = p.real) ∧
      ∀ (i : Nat) r, pts[i]? = some r → ∃ a b f s, Walk (base.map Point2D.real) s a b f ∧
        |s - i * (L / (n - 1))| ≤ (base.length + 2) * 2 ^ (-47 : ℤ) * L ∧
        ∀ d, F64.Num (at2 r d) ∧ |toR (at2 r d) - (at2 a d + f * (at2 b d - at2 a d))| ≤ 2 ^ (-47 : ℤ) * M := by
  intro base L
  have hc' : ∀ c ∈ base, ∀ d, F64.Num (at2 c d) ∧ |toR (at2 c d)| ≤ 2 ^ (500 : ℤ) :=
    fun c h d => ⟨(hc c h d).1, (hc c h d).2.trans hM2⟩
  have hbase2 : ¬ base.length < 2 := by simp [base]
  have hn0 : ¬ n = 0 := by omega
  obtain ⟨pts, e, hlen, h⟩ := interpolation_f64 p q t n (fun f p q => ⟨p.x + f * (q.x - p.x), p.y + f * (q.y - p.y)⟩) hN hn hn2 hc' hd
  have key2 : ∀ (c : Point2D F64) d, at2 c.real d = toR (at2 c d) := by
    intro c; rw [Fin.forall_fin_two]; exact ⟨rfl, rfl⟩
  have mix : ∀ a ∈ base, ∀ b ∈ base, ∀ g f, F64.Num g → 0 ≤ f → f ≤ 1 → |toR g - f| ≤ 8 * uu → ∀ d,
      F64.Num (at2 (⟨a.x + g * (b.x - a.x), a.y + g * (b.y - a.y)⟩ : Point2D F64) d) ∧
      |toR (at2 (⟨a.x + g * (b.x - a.x), a.y + g * (b.y - a.y)⟩ : Point2D F64) d) - (at2 a.real d + f * (at2 b.real d - at2 a.real d))|
        ≤ 2 ^ (-47 : ℤ) * M ∧
      (toR g = 0 → toR (at2 (⟨a.x + g * (b.x - a.x), a.y + g * (b.y - a.y)⟩ : Point2D F64) d) = toR (at2 a d)) := by
    intro a ha b hb g f hg f0 f1 fe
    rw [Fin.forall_fin_two]
    exact ⟨mix_err (hc a ha 0).1 (hc b hb 0).1 hg (hc a ha 0).2 (hc b hb 0).2 f0 f1 fe hM1 hM2,
      mix_err (hc a ha 1).1 (hc b hb 1).1 hg (hc a ha 1).2 (hc b hb 1).2 f0 f1 fe hM1 hM2⟩
  refine ⟨pts, ?_, hlen, ?_, ?_⟩
  · simp only [interpolationLinear, if_neg hbase2, if_neg hn0]
    rw [← e]
  · have hi : 0 < pts.length := by omega
    obtain ⟨a, ha, b, hb, g, f, s, hr, hg, f0, f1, fe, -, -, hz⟩ := h 0 pts[0] (List.getElem?_eq_getElem hi)
    refine ⟨pts[0], by rw [List.head?_eq_getElem?, List.getElem?_eq_getElem hi], ?_⟩
    have m := mix a ha b hb g f hg f0 f1 fe
    rw [hr]
    obtain ⟨rfl, g0⟩ := hz rfl
    simp only [Point2D.real, Point2D.mk.injEq]
    exact ⟨(m 0).2.2 g0, (m 1).2.2 g0⟩
  · intro i r hr
    obtain ⟨a, ha, b, hb, g, f, s, hr, hg, f0, f1, fe, hw, hs, -⟩ := h i r hr
    have m := mix a ha b hb g f hg f0 f1 fe
    refine ⟨a.real, b.real, f, s, hw, hs, fun d => ?_⟩
    rw [hr]
    exact ⟨(m d).1, (m d).2.1⟩

/-- **C78 violated** the last point can be missing: 26 points along a segment of the length 7 -/
theorem c78_violated_last : ∃ pts, interpolationLinear [⟨f 0, f 0⟩, ⟨f 7, f 0⟩] 26 = some (.ok pts) ∧
    pts.length = 25 ∧ ∀ r ∈ pts, Scalar.lt r.x (f 7) = true := by
  refine ⟨_, rfl, ?_, ?_⟩ <;> decide +kernel

/-- the conditions hold for a polyline through (0, 0), (3, 4) and (-3, 4) -/
example (n : Nat) (h2 : 2 ≤ n) (hn : n ≤ 2 ^ 40) : ∃ pts, interpolationLinear [⟨f 0, f 0⟩, ⟨f 3, f 4⟩, ⟨f (-3), f 4⟩] n = some (.ok pts) ∧
    (pts.length = n ∨ pts.length + 1 = n) := by
  have a0 := ex_num 0 false 0 (by decide +kernel)
  have a1 := ex_num 3 false 3 (by decide +kernel)
  have a2 := ex_num 4 false 4 (by decide +kernel)
  have a3 := ex_num (-3) true 3 (by decide +kernel)
  simp only [F64.val] at a0 a1 a2 a3
  norm_num at a0 a1 a2 a3
  obtain ⟨pts, h1, h2, -⟩ := c78_linear_f64_partial ⟨f 0, f 0⟩ ⟨f 3, f 4⟩ [⟨f (-3), f 4⟩] n 4 (by simp) h2 hn
    (by
      have : (2:ℝ) ^ (-500 : ℤ) ≤ 1 := zpow_le_one_of_nonpos₀ one_le_two (by norm_num)
      linarith only [this])
    (by
      have := zpow_le_zpow_right₀ (one_le_two (α := ℝ)) (show (2:ℤ) ≤ 500 by norm_num)
      refine le_trans ?_ this; norm_num)
    (by
      intro c hc
      simp only [List.mem_cons, List.not_mem_nil, or_false] at hc
      rw [Fin.forall_fin_two]
      rcases hc with rfl | rfl | rfl <;> simp only [at2_zero, at2_one] <;> refine ⟨⟨?_, ?_⟩, ?_, ?_⟩ <;>
        first | exact a0.1 | exact a1.1 | exact a2.1 | exact a3.1
              | (rw [a0.2]; norm_num) | (rw [a1.2]; norm_num) | (rw [a2.2]; norm_num) | (rw [a3.2]; norm_num))
    (by
      have : segLen2 (Point2D.real ⟨f 0, f 0⟩) (Point2D.real ⟨f 3, f 4⟩) = 5 := by
        simp only [segLen2, Spec.sqrDist, Fin.sum_univ_two, at2_zero, at2_one, Point2D.real, a0.2, a1.2, a2.2]
        rw [show ((0:ℝ) - 3) ^ 2 + (0 - 4) ^ 2 = 5 ^ 2 by norm_num]
        exact Real.sqrt_sq (by norm_num)
      rw [this]
      have : (2:ℝ) ^ (-400 : ℤ) ≤ 1 := zpow_le_one_of_nonpos₀ one_le_two (by norm_num)
      linarith only [this])
  exact ⟨pts, h1, h2⟩

end R3D
