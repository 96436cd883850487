import Verif.Lemmas.F64Appr
import Verif.Model.PointCloud
import Verif.Props.CompressFloat
import Verif.Props.DistFloat
/-!
# C99: centers of gravity and lengths with doubles
-/
namespace R3D
open Scalar LawfulScalar Spec F64

namespace F64

/-- adding up a list -/
theorem sum_err (xs : List F64) : ∀ (acc : F64) (A : ℝ), Num acc → (∀ x ∈ xs, Num x) → |toR acc| ≤ A →
    (1 + uu) ^ xs.length * (A + (xs.map fun x => |toR x|).sum) ≤ 2 ^ (1023 : ℤ) →
    Num (xs.foldl (· + ·) acc) ∧
      |toR (xs.foldl (· + ·) acc) - (toR acc + (xs.map toR).sum)| ≤
        ((1 + uu) ^ xs.length - 1) * (A + (xs.map fun x => |toR x|).sum) := by
  induction xs with
  | nil => intro acc A h _ hA _; simpa using h
  | cons x xs ih =>
    intro acc A h hx hA hb
    have hu := uu_pos
    simp only [List.map_cons, List.sum_cons, List.length_cons, List.foldl_cons] at hb ⊢
    have hxn := hx x (by simp)
    have hS : 0 ≤ (xs.map fun x => |toR x|).sum := by
      apply List.sum_nonneg
      intro y hy
      obtain ⟨z, -, rfl⟩ := List.mem_map.1 hy
      exact abs_nonneg _
    have hA0 : 0 ≤ A := (abs_nonneg _).trans hA
    have hx0 := abs_nonneg (toR x)
    have hP := one_le_pow_uu xs.length
    generalize (xs.map fun x => |toR x|).sum = S at *
    have hle : |toR acc + toR x| ≤ A + |toR x| := (abs_add_le _ _).trans (add_le_add hA le_rfl)
    have hT : A + (|toR x| + S) ≤ (1 + uu) ^ (xs.length + 1) * (A + (|toR x| + S)) :=
      le_mul_of_one_le_left (by linarith) (one_le_pow_uu _)
    obtain ⟨n, e⟩ := toR_add h hxn (by
      refine le_trans hle (le_trans ?_ (hT.trans hb))
      linarith)
    have e' : |toR (acc + x) - (toR acc + toR x)| ≤ uu * (A + |toR x|) :=
      e.trans (mul_le_mul_of_nonneg_left hle hu.le)
    have hA' : |toR (acc + x)| ≤ (1 + uu) * (A + |toR x|) := by
      have := abs_add_le (toR (acc + x) - (toR acc + toR x)) (toR acc + toR x)
      rw [sub_add_cancel] at this
      linarith
    have hmono : (1 + uu) * (A + |toR x|) + S ≤ (1 + uu) * (A + (|toR x| + S)) := by nlinarith
    obtain ⟨k1, k2⟩ := ih (acc + x) _ n (fun y hy => hx y (by simp [hy])) hA' (by
      refine le_trans ?_ hb
      rw [pow_succ, mul_assoc]
      exact mul_le_mul_of_nonneg_left hmono (by linarith))
    refine ⟨k1, ?_⟩
    have h3 := abs_add_le (toR (xs.foldl (· + ·) (acc + x)) - (toR (acc + x) + (xs.map toR).sum)) (toR (acc + x) - (toR acc + toR x))
    rw [show toR (xs.foldl (· + ·) (acc + x)) - (toR (acc + x) + (xs.map toR).sum) + (toR (acc + x) - (toR acc + toR x))
      = toR (xs.foldl (· + ·) (acc + x)) - (toR acc + (toR x + (xs.map toR).sum)) by ring] at h3
    have h4 := mul_le_mul_of_nonneg_left hmono (show (0:ℝ) ≤ (1 + uu) ^ xs.length - 1 by linarith)
    rw [pow_succ]
    have h5 := mul_nonneg hu.le hS
    nlinarith only [h3, h4, h5, k2, e']

/-- at most `2^52` numbers of at most `M` -/
theorem sum_err_le (xs : List F64) {M : ℝ} (hx : ∀ x ∈ xs, Num x ∧ |toR x| ≤ M) (hn : xs.length ≤ 2 ^ 52) (hM0 : 0 ≤ M)
    (hM : M ≤ 2 ^ (960 : ℤ)) : Num (xs.foldl (· + ·) (Scalar.zero : F64)) ∧
      |toR (xs.foldl (· + ·) (Scalar.zero : F64)) - (xs.map toR).sum| ≤ 2 * xs.length * uu * (xs.length * M) := by
  have hsum : ∀ ys : List F64, (∀ x ∈ ys, Num x ∧ |toR x| ≤ M) → (ys.map fun x => |toR x|).sum ≤ ys.length * M := by
    intro ys
    induction ys with
    | nil => simp
    | cons y ys ih =>
      intro h
      have := ih fun x hx => h x (by simp [hx])
      have := (h y (by simp)).2
      simp only [List.map_cons, List.sum_cons, List.length_cons]
      push_cast
      linarith
  have hs := hsum xs hx
  have hnr : (xs.length : ℝ) ≤ 2 ^ 52 := by exact_mod_cast hn
  have hp := pow_uu_le (k := xs.length) (by
    have : uu = 1 / 2 ^ 53 := by unfold uu; rw [u_small]; norm_num
    rw [this]
    have : (2:ℝ) ^ 53 = 2 * 2 ^ 52 := by norm_num
    rw [mul_one_div, div_le_one (by positivity), this]
    linarith)
  have hp2 : (1 + uu) ^ xs.length ≤ 2 := by
    refine hp.trans ?_
    have : uu = 1 / 2 ^ 53 := by unfold uu; rw [u_small]; norm_num
    rw [this]
    have h53 : (2:ℝ) ^ 53 = 2 * 2 ^ 52 := by norm_num
    have : 2 * (xs.length : ℝ) * (1 / 2 ^ 53) ≤ 1 := by
      rw [mul_one_div, div_le_one (by positivity), h53]; linarith
    linarith
  have hS0 : 0 ≤ (xs.map fun x => |toR x|).sum := by
    apply List.sum_nonneg
    intro y hy
    obtain ⟨z, -, rfl⟩ := List.mem_map.1 hy
    exact abs_nonneg _
  obtain ⟨k1, k2⟩ := sum_err xs Scalar.zero 0 num_zero (fun x h => (hx x h).1) (by rw [toR_zero, abs_zero]) (by
    rw [zero_add]
    have h1 := mul_le_mul hp2 hs hS0 (by norm_num)
    refine h1.trans ?_
    have h2 : (xs.length : ℝ) * M ≤ 2 ^ 52 * 2 ^ (960 : ℤ) := mul_le_mul hnr hM hM0 (by positivity)
    have h3 : (2:ℝ) ^ (1023 : ℤ) = 2 ^ 63 * 2 ^ (960 : ℤ) := by
      rw [← zpow_natCast, ← zpow_add₀ two_ne_zero]; norm_num
    rw [h3]
    have h4 : (0:ℝ) < 2 ^ (960 : ℤ) := zpow_pos two_pos _
    generalize (2:ℝ) ^ (960 : ℤ) = T at *
    norm_num at h2 ⊢
    linarith only [h2, h4])
  refine ⟨k1, ?_⟩
  rw [toR_zero, zero_add, zero_add] at k2
  refine k2.trans ?_
  exact mul_le_mul (by linarith) hs hS0 (by have := uu_pos; positivity)

/-- the mean of at most `2^52` numbers -/
theorem mean_err (xs : List F64) {M : ℝ} (hx : ∀ x ∈ xs, Num x ∧ |toR x| ≤ M) (h0 : xs ≠ []) (hn : xs.length ≤ 2 ^ 52)
    (hM : M ≤ 2 ^ (960 : ℤ)) : Num (xs.foldl (· + ·) (Scalar.zero : F64) / Scalar.lit (xs.length : ℚ)) ∧
      |toR (xs.foldl (· + ·) (Scalar.zero : F64) / Scalar.lit (xs.length : ℚ)) - (xs.map toR).sum / xs.length|
        ≤ xs.length * 2 ^ (-51 : ℤ) * M + 2 ^ (-1074 : ℤ) := by
  have hM0 : 0 ≤ M := by
    obtain ⟨x, hx'⟩ := List.exists_mem_of_ne_nil _ h0
    exact (abs_nonneg _).trans (hx x hx').2
  have hpos : 1 ≤ xs.length := List.length_pos_iff.2 h0
  obtain ⟨k1, k2⟩ := sum_err_le xs hx hn hM0 hM
  have habs : ∀ ys : List F64, (∀ x ∈ ys, Num x ∧ |toR x| ≤ M) → |(ys.map toR).sum| ≤ ys.length * M := by
    intro ys
    induction ys with
    | nil => simp
    | cons y ys ih =>
      intro h
      have h1 := ih fun x hx => h x (by simp [hx])
      have h2 := (h y (by simp)).2
      simp only [List.map_cons, List.sum_cons, List.length_cons]
      push_cast
      refine (abs_add_le _ _).trans ?_
      linarith
  have hsum := habs xs hx
  obtain ⟨l1, l2⟩ := lit_nat (k := xs.length) (lt_of_le_of_lt hn (by norm_num))
  generalize xs.foldl (· + ·) (Scalar.zero : F64) = S at *
  generalize (xs.map toR).sum = R at *
  have hnr1 : (1:ℝ) ≤ xs.length := by exact_mod_cast hpos
  have hnr2 : (xs.length : ℝ) ≤ 2 ^ 52 := by exact_mod_cast hn
  generalize (xs.length : ℝ) = n at *
  have hu : uu = 1 / 2 ^ 53 := by unfold uu; rw [u_small]; norm_num
  have hn0 : 0 < n := by linarith
  have hnu : n * uu ≤ 1 / 2 := by
    rw [hu, mul_one_div, div_le_iff₀ (by positivity)]
    norm_num at hnr2 ⊢
    linarith
  -- the quotient before rounding
  have q1 : |toR S / n - R / n| ≤ 2 * (n * uu) * M := by
    rw [← sub_div, abs_div, abs_of_pos hn0, div_le_iff₀ hn0]
    refine k2.trans (le_of_eq ?_)
    ring
  have q2 : |R / n| ≤ M := by
    rw [abs_div, abs_of_pos hn0, div_le_iff₀ hn0, mul_comm]; exact hsum
  have q3 : |toR S / n| ≤ 2 * M := by
    have := abs_add_le (toR S / n - R / n) (R / n)
    rw [sub_add_cancel] at this
    have h2 := mul_le_mul_of_nonneg_right hnu hM0
    linarith
  have hbig : 2 * M ≤ 2 ^ (1023 : ℤ) := by
    have h3 : (2:ℝ) ^ (1023 : ℤ) = 2 ^ 63 * 2 ^ (960 : ℤ) := by
      rw [← zpow_natCast, ← zpow_add₀ two_ne_zero]; norm_num
    rw [h3]
    have h4 : (0:ℝ) < 2 ^ (960 : ℤ) := zpow_pos two_pos _
    generalize (2:ℝ) ^ (960 : ℤ) = T at *
    norm_num
    linarith only [hM, h4]
  obtain ⟨d1, d2⟩ := toR_div k1 l1 (by rw [l2]; exact hn0.ne') (by rw [l2]; exact q3.trans hbig)
  rw [l2] at d2
  refine ⟨d1, ?_⟩
  have h5 := abs_add_le (toR (S / Scalar.lit (xs.length : ℚ)) - toR S / n) (toR S / n - R / n)
  rw [sub_add_sub_cancel] at h5
  have h6 : (2:ℝ) ^ (-53 : ℤ) * |toR S / n| ≤ uu * (2 * M) := mul_le_mul_of_nonneg_left q3 uu_pos.le
  have h7 : (2:ℝ) ^ (-51 : ℤ) = 4 * uu := by rw [hu]; norm_num
  have h8 : uu * M ≤ n * uu * M := by
    have := mul_le_mul_of_nonneg_right hnr1 (mul_nonneg uu_pos.le hM0)
    linarith
  rw [eta_half] at d2
  have := eta_pos
  rw [h7]
  generalize (2:ℝ) ^ (-1074 : ℤ) = η at *
  linarith only [h5, d2, h6, h8, q1, this]

/-- adding up accurate non negative numbers -/
theorem sum_acc (ds : List F64) (rs : List ℝ)
    (h : List.Forall₂ (fun d r => F64.Num d ∧ 0 ≤ r ∧ r ≤ 2 ^ (600 : ℤ) ∧ |toR d - r| ≤ 2 ^ (-50 : ℤ) * r + 2 ^ (-536 : ℤ)) ds rs)
    (hn : ds.length ≤ 2 ^ 52) :
    Num (ds.foldl (· + ·) (Scalar.zero : F64)) ∧
      |toR (ds.foldl (· + ·) (Scalar.zero : F64)) - rs.sum| ≤ (ds.length + 1) * 2 ^ (-50 : ℤ) * rs.sum + ds.length * 2 ^ (-535 : ℤ) := by
  have hε : (2:ℝ) ^ (-535 : ℤ) = 2 * 2 ^ (-536 : ℤ) := by
    rw [show (-535 : ℤ) = 1 + -536 by norm_num, zpow_add₀ two_ne_zero]; norm_num
  have hε0 : (0:ℝ) < 2 ^ (-536 : ℤ) := zpow_pos two_pos _
  have hε1 : (2:ℝ) ^ (-536 : ℤ) ≤ 1 := zpow_le_one_of_nonpos₀ one_le_two (by norm_num)
  have hu : uu = 1 / 2 ^ 53 := by unfold uu; rw [u_small]; norm_num
  have h50 : (2:ℝ) ^ (-50 : ℤ) = 8 * uu := by rw [hu]; norm_num
  rw [hε]
  have key : ∀ (ds : List F64) (rs : List ℝ),
      List.Forall₂ (fun d r => F64.Num d ∧ 0 ≤ r ∧ r ≤ 2 ^ (600 : ℤ) ∧ |toR d - r| ≤ 2 ^ (-50 : ℤ) * r + 2 ^ (-536 : ℤ)) ds rs →
      (∀ d ∈ ds, Num d) ∧ 0 ≤ rs.sum ∧ rs.sum ≤ ds.length * 2 ^ (600 : ℤ) ∧
      |(ds.map toR).sum - rs.sum| ≤ 8 * uu * rs.sum + ds.length * 2 ^ (-536 : ℤ) ∧
      (ds.map fun x => |toR x|).sum ≤ (1 + 8 * uu) * rs.sum + ds.length * 2 ^ (-536 : ℤ) := by
    intro ds rs h
    induction h with
    | nil => simp
    | @cons d r ds rs h1 _ ih =>
      obtain ⟨n1, r0, r1, e1⟩ := h1
      obtain ⟨n2, s0, s1, e2, e3⟩ := ih
      rw [h50] at e1
      simp only [List.map_cons, List.sum_cons, List.length_cons]
      push_cast
      have h4 : |toR d| ≤ (1 + 8 * uu) * r + 2 ^ (-536 : ℤ) := by
        have := abs_add_le (toR d - r) r
        rw [sub_add_cancel, abs_of_nonneg r0] at this
        linarith only [this, e1]
      refine ⟨by simpa [n1] using n2, by linarith, by linarith only [r1, s1], ?_, by linarith only [h4, e3]⟩
      have := abs_add_le (toR d - r) ((ds.map toR).sum - rs.sum)
      rw [show toR d - r + ((ds.map toR).sum - rs.sum) = toR d + (ds.map toR).sum - (r + rs.sum) by ring] at this
      linarith only [this, e1, e2]
  obtain ⟨n1, R0, R1, e1, e2⟩ := key ds rs h
  have hnr : (ds.length : ℝ) ≤ 2 ^ 52 := by exact_mod_cast hn
  have hn0 : (0:ℝ) ≤ ds.length := Nat.cast_nonneg _
  have hnu : 2 * (ds.length : ℝ) * uu ≤ 1 := by
    rw [hu, mul_one_div, div_le_one (by positivity), show (2:ℝ) ^ 53 = 2 * 2 ^ 52 by norm_num]
    linarith only [hnr]
  have hp := pow_uu_le hnu
  have hp2 : (1 + uu) ^ ds.length ≤ 2 := by linarith
  have hS0 : 0 ≤ (ds.map fun x => |toR x|).sum := by
    apply List.sum_nonneg
    intro y hy
    obtain ⟨z, -, rfl⟩ := List.mem_map.1 hy
    exact abs_nonneg _
  obtain ⟨k1, k2⟩ := sum_err ds Scalar.zero 0 num_zero n1 (by rw [toR_zero, abs_zero]) (by
    rw [zero_add]
    have h1 := mul_le_mul hp2 e2 hS0 (by norm_num)
    refine h1.trans ?_
    have h3 : (2:ℝ) ^ (1023 : ℤ) = 2 ^ 423 * 2 ^ (600 : ℤ) := by
      rw [← zpow_natCast, ← zpow_add₀ two_ne_zero]; norm_num
    have h4 : (1:ℝ) ≤ 2 ^ (600 : ℤ) := one_le_zpow₀ one_le_two (by norm_num)
    have h5 : (2:ℝ) ^ 60 * 2 ^ (600 : ℤ) ≤ 2 ^ 423 * 2 ^ (600 : ℤ) :=
      mul_le_mul_of_nonneg_right (pow_le_pow_right₀ one_le_two (by norm_num)) (zero_le_one.trans h4)
    rw [h3]
    refine le_trans ?_ h5
    have h6 : (ds.length : ℝ) * 2 ^ (600 : ℤ) ≤ 2 ^ 52 * 2 ^ (600 : ℤ) := mul_le_mul_of_nonneg_right hnr (zero_le_one.trans h4)
    have h7 : (ds.length : ℝ) * 2 ^ (-536 : ℤ) ≤ 2 ^ 52 * 1 := mul_le_mul hnr hε1 hε0.le (by positivity)
    have h8 : (1 + 8 * uu) * rs.sum ≤ 3 * rs.sum := mul_le_mul_of_nonneg_right (by linarith [uu_le]) R0
    generalize (2:ℝ) ^ (600 : ℤ) = T at *
    generalize (2:ℝ) ^ (-536 : ℤ) = ε at *
    norm_num at h6 h7 ⊢
    linarith only [h4, R1, h6, h7, h8])
  refine ⟨k1, ?_⟩
  rw [toR_zero, zero_add, zero_add] at k2
  have h1 : ((1 + uu) ^ ds.length - 1) * (ds.map fun x => |toR x|).sum ≤
      2 * ds.length * uu * ((1 + 8 * uu) * rs.sum + ds.length * 2 ^ (-536 : ℤ)) :=
    mul_le_mul (by linarith) e2 hS0 (by have := uu_pos; positivity)
  have h2 := abs_add_le (toR (ds.foldl (· + ·) (Scalar.zero : F64)) - (ds.map toR).sum) ((ds.map toR).sum - rs.sum)
  rw [sub_add_sub_cancel] at h2
  rw [h50]
  generalize toR (ds.foldl (· + ·) (Scalar.zero : F64)) = L at *
  generalize rs.sum = R at *
  generalize (ds.length : ℝ) = n at *
  generalize (2:ℝ) ^ (-536 : ℤ) = ε at *
  have h3 : (1 + 8 * uu) * R ≤ 3 * R := mul_le_mul_of_nonneg_right (by linarith [uu_le]) R0
  have h4 : 2 * n * uu * ((1 + 8 * uu) * R) ≤ 2 * n * uu * (3 * R) := mul_le_mul_of_nonneg_left h3 (by have := uu_pos; positivity)
  have h5 : 2 * n * uu * (n * ε) ≤ 1 * (n * ε) := mul_le_mul_of_nonneg_right hnu (by positivity)
  have h6 : 0 ≤ n * uu * R := by have := uu_pos; positivity
  linarith only [k2, h1, h2, h4, h5, e1, h6]

theorem foldl_pair {β : Type} (f g : β → F64) (l : List β) (a b : F64) :
    l.foldl (fun (s : F64 × F64) p => (s.1 + f p, s.2 + g p)) (a, b) = ((l.map f).foldl (· + ·) a, (l.map g).foldl (· + ·) b) := by
  induction l generalizing a b with
  | nil => rfl
  | cons x l ih => simp only [List.foldl_cons, List.map_cons]; exact ih _ _

theorem foldl_triple {β : Type} (f g h : β → F64) (l : List β) (a b c : F64) :
    l.foldl (fun (s : F64 × F64 × F64) p => (s.1 + f p, s.2.1 + g p, s.2.2 + h p)) (a, b, c)
      = ((l.map f).foldl (· + ·) a, (l.map g).foldl (· + ·) b, (l.map h).foldl (· + ·) c) := by
  induction l generalizing a b c with
  | nil => rfl
  | cons x l ih => simp only [List.foldl_cons, List.map_cons]; exact ih _ _ _

theorem zip_forall₂ {β γ δ ε : Type} {R : δ → ε → Prop} {f : β → γ → δ} {g : β → γ → ε} : ∀ (l : List β) (m : List γ),
    (∀ a ∈ l, ∀ b ∈ m, R (f a b) (g a b)) → List.Forall₂ R (List.zipWith f l m) (List.zipWith g l m)
  | [], _, _ => by simp
  | _ :: _, [], _ => by simp
  | a :: l, b :: m, h => by
    simp only [List.zipWith_cons_cons]
    exact .cons (h a (by simp) b (by simp)) (zip_forall₂ l m fun x hx y hy => h x (by simp [hx]) y (by simp [hy]))

end F64

/-- the mean of the `d`-th coordinates -/
noncomputable def Spec.meanF2 (l : List (Point2D F64)) (d : Fin 2) : ℝ := (l.map fun p => toR (at2 p d)).sum / l.length
noncomputable def Spec.meanF3 (l : List (Point3D F64)) (d : Fin 3) : ℝ := (l.map fun p => toR (at3 p d)).sum / l.length

/-- C99: the center of gravity of a non empty cloud of at most `2^52` points with coordinates of at most `M`: it
exists and is finite, and every coordinate is the mean up to `n 2^-51 M` -/
theorem c99_center_2d (l : List (Point2D F64)) (M : ℝ) (h0 : l ≠ []) (hn : l.length ≤ 2 ^ 52) (hM : M ≤ 2 ^ (960 : ℤ))
    (hl : ∀ p ∈ l, ∀ d, F64.Num (at2 p d) ∧ |toR (at2 p d)| ≤ M) :
    ∃ c, PointCloud2D.centerOfGravity ⟨l⟩ = some c ∧ ∀ d, F64.Num (at2 c d) ∧
      |toR (at2 c d) - meanF2 l d| ≤ l.length * 2 ^ (-51 : ℤ) * M + 2 ^ (-1074 : ℤ) := by
  have key : ∀ d : Fin 2, _ := fun d => mean_err (l.map fun p => at2 p d) (M := M) (by
    intro x hx
    obtain ⟨p, hp, rfl⟩ := List.mem_map.1 hx
    exact hl p hp d) (by simpa using h0) (by simpa using hn) hM
  simp only [List.length_map, List.map_map] at key
  have hlen : ¬ (PointCloud.mk l).len < 1 := by
    have := List.length_pos_iff.2 h0; simp only [PointCloud.len]; omega
  have e : PointCloud2D.centerOfGravity ⟨l⟩ = some ⟨(l.map fun p => at2 p 0).foldl (· + ·) Scalar.zero / Scalar.lit l.length, (l.map fun p => at2 p 1).foldl (· + ·) Scalar.zero / Scalar.lit l.length⟩ := by
    unfold PointCloud2D.centerOfGravity
    rw [if_neg hlen]
    have h := foldl_pair (fun p : Point2D F64 => at2 p 0) (fun p : Point2D F64 => at2 p 1) l Scalar.zero Scalar.zero
    have h' : l.foldl (fun (s : F64 × F64) p => (s.1 + p.x, s.2 + p.y)) (Scalar.zero, Scalar.zero) = _ := h
    show some _ = _
    rw [h']
  refine ⟨_, e, ?_⟩
  rw [Fin.forall_fin_two]
  exact ⟨key 0, key 1⟩

theorem c99_center_3d (l : List (Point3D F64)) (M : ℝ) (h0 : l ≠ []) (hn : l.length ≤ 2 ^ 52) (hM : M ≤ 2 ^ (960 : ℤ))
    (hl : ∀ p ∈ l, ∀ d, F64.Num (at3 p d) ∧ |toR (at3 p d)| ≤ M) :
    ∃ c, PointCloud3D.centerOfGravity ⟨l⟩ = some c ∧ ∀ d, F64.Num (at3 c d) ∧
      |toR (at3 c d) - meanF3 l d| ≤ l.length * 2 ^ (-51 : ℤ) * M + 2 ^ (-1074 : ℤ) := by
  have key : ∀ d : Fin 3, _ := fun d => mean_err (l.map fun p => at3 p d) (M := M) (by
    intro x hx
    obtain ⟨p, hp, rfl⟩ := List.mem_map.1 hx
    exact hl p hp d) (by simpa using h0) (by simpa using hn) hM
  simp only [List.length_map, List.map_map] at key
  have hlen : ¬ (PointCloud.mk l).len < 1 := by
    have := List.length_pos_iff.2 h0; simp only [PointCloud.len]; omega
  have e : PointCloud3D.centerOfGravity ⟨l⟩ = some ⟨(l.map fun p => at3 p 0).foldl (· + ·) Scalar.zero / Scalar.lit l.length, (l.map fun p => at3 p 1).foldl (· + ·) Scalar.zero / Scalar.lit l.length, (l.map fun p => at3 p 2).foldl (· + ·) Scalar.zero / Scalar.lit l.length⟩ := by
    unfold PointCloud3D.centerOfGravity
    rw [if_neg hlen]
    have h := foldl_triple (fun p : Point3D F64 => at3 p 0) (fun p : Point3D F64 => at3 p 1) (fun p : Point3D F64 => at3 p 2) l Scalar.zero Scalar.zero Scalar.zero
    have h' : l.foldl (fun (s : F64 × F64 × F64) p => (s.1 + p.x, s.2.1 + p.y, s.2.2 + p.z)) (Scalar.zero, Scalar.zero, Scalar.zero) = _ := h
    show some _ = _
    rw [h']
  refine ⟨_, e, ?_⟩
  rw [Spec.forall_fin3]
  exact ⟨key 0, key 1, key 2⟩

/-- C99 is no exact law: the center of three equal points is another point, outside of their (degenerate) hull -/
theorem c99_violated : let p : Point2D F64 := ⟨f (1/10), f 1⟩
    ((PointCloud2D.centerOfGravity ⟨[p, p, p]⟩).map fun c => Scalar.lt p.x c.x) = some true := by decide +kernel

/-- the distance of two points of doubles, exactly -/
noncomputable def Spec.segF2 (p q : Point2D F64) : ℝ := √(Spec.sqrDist (at2 p.real) (at2 q.real))
noncomputable def Spec.segF3 (p q : Point3D F64) : ℝ := √(Spec.sqrDist (at3 p.real) (at3 q.real))

theorem zipWith_tail_append {β γ : Type} (g : β → β → γ) : ∀ (l : List β) (a x : β),
    List.zipWith g (a :: l) (l ++ [x]) = List.zipWith g (a :: l) l ++ [g ((a :: l).getLast (by simp)) x]
  | [], a, x => rfl
  | b :: l, a, x => by
    have := zipWith_tail_append g l b x
    simp only [List.cons_append, List.zipWith_cons_cons] at this ⊢
    rw [this]
    simp

theorem lengthLoop_fold_2d (l : List (Point2D F64)) (acc : F64) :
    PointCloud2D.lengthLoop acc l = (List.zipWith (fun a b => b.dist a) l l.tail).foldl (· + ·) acc := by
  match l with
  | [] => rfl
  | [a] => rfl
  | a :: b :: l =>
    simp only [PointCloud2D.lengthLoop, List.tail_cons, List.zipWith_cons_cons, List.foldl_cons]
    exact lengthLoop_fold_2d (b :: l) _

theorem lengthLoop_fold_3d (l : List (Point3D F64)) (acc : F64) :
    PointCloud3D.lengthLoop acc l = (List.zipWith (fun a b => b.dist a) l l.tail).foldl (· + ·) acc := by
  match l with
  | [] => rfl
  | [a] => rfl
  | a :: b :: l =>
    simp only [PointCloud3D.lengthLoop, List.tail_cons, List.zipWith_cons_cons, List.foldl_cons]
    exact lengthLoop_fold_3d (b :: l) _

theorem length_fold_2d (l : List (Point2D F64)) :
    PointCloud2D.length ⟨l⟩ = (List.zipWith (fun a b => b.dist a) l l.tail).foldl (· + ·) Scalar.zero := by
  match l with
  | [] => rfl
  | [a] => rfl
  | a :: b :: l => rw [← lengthLoop_fold_2d]; rfl

theorem length_fold_3d (l : List (Point3D F64)) :
    PointCloud3D.length ⟨l⟩ = (List.zipWith (fun a b => b.dist a) l l.tail).foldl (· + ·) Scalar.zero := by
  match l with
  | [] => rfl
  | [a] => rfl
  | a :: b :: l => rw [← lengthLoop_fold_3d]; rfl

theorem polygon_fold_2d (a : Point2D F64) (l : List (Point2D F64)) :
    Polygon.length2D ⟨⟨a :: l⟩⟩ = some ((List.zipWith (fun a b => b.dist a) (a :: l) ((a :: l).rotate 1)).foldl (· + ·) Scalar.zero) := by
  have e : (a :: l).rotate 1 = l ++ [a] := by simp
  rw [e, zipWith_tail_append, List.foldl_append]
  have := length_fold_2d (a :: l)
  rw [List.tail_cons] at this
  rw [← this]
  have hl : (a :: l)[l.length]? = some ((a :: l).getLast (by simp)) := by
    rw [List.getLast_eq_getElem, List.getElem?_eq_getElem (by simp)]; simp
  simp only [Polygon.length2D, PointCloud.len, PointCloud.index, List.length_cons, Nat.add_sub_cancel, hl,
    List.getElem?_cons_zero, Option.bind_eq_bind, Option.bind_some, List.foldl_cons, List.foldl_nil]
  rw [if_pos (by omega), (c92_symmetric Point3D.default Point3D.default _ _).2.2.1]

theorem polygon_fold_3d (a : Point3D F64) (l : List (Point3D F64)) :
    Polygon.length3D ⟨⟨a :: l⟩⟩ = some ((List.zipWith (fun a b => b.dist a) (a :: l) ((a :: l).rotate 1)).foldl (· + ·) Scalar.zero) := by
  have e : (a :: l).rotate 1 = l ++ [a] := by simp
  rw [e, zipWith_tail_append, List.foldl_append]
  have := length_fold_3d (a :: l)
  rw [List.tail_cons] at this
  rw [← this]
  have hl : (a :: l)[l.length]? = some ((a :: l).getLast (by simp)) := by
    rw [List.getLast_eq_getElem, List.getElem?_eq_getElem (by simp)]; simp
  simp only [Polygon.length3D, PointCloud.len, PointCloud.index, List.length_cons, Nat.add_sub_cancel, hl,
    List.getElem?_cons_zero, Option.bind_eq_bind, Option.bind_some, List.foldl_cons, List.foldl_nil]
  rw [if_pos (by omega), (c92_symmetric _ _ Point2D.default Point2D.default).1]

theorem seg_acc_2d {p q : Point2D F64} (hp : ∀ d, F64.Num (at2 p d) ∧ |toR (at2 p d)| ≤ 2 ^ (500 : ℤ))
    (hq : ∀ d, F64.Num (at2 q d) ∧ |toR (at2 q d)| ≤ 2 ^ (500 : ℤ)) :
    F64.Num (q.dist p) ∧ 0 ≤ segF2 p q ∧ segF2 p q ≤ 2 ^ (600 : ℤ) ∧
      |toR (q.dist p) - segF2 p q| ≤ 2 ^ (-50 : ℤ) * segF2 p q + 2 ^ (-536 : ℤ) := by
  have hpn : p.Num := ⟨(hp 0).1, (hp 1).1⟩
  have hqn : q.Num := ⟨(hq 0).1, (hq 1).1⟩
  have e1 : (2:ℝ) ^ (501 : ℤ) = 2 ^ (500 : ℤ) + 2 ^ (500 : ℤ) := by
    rw [show (501 : ℤ) = 1 + 500 by norm_num, zpow_add₀ two_ne_zero, zpow_one, two_mul]
  have hd : ∀ d, |at2 q.real d - at2 p.real d| ≤ 2 ^ (501 : ℤ) := by
    rw [e1]
    have hp' := fun d => (hp d).2
    have hq' := fun d => (hq d).2
    rw [Fin.forall_fin_two] at hp' hq' ⊢
    exact ⟨(abs_sub _ _).trans (add_le_add hq'.1 hp'.1), (abs_sub _ _).trans (add_le_add hq'.2 hp'.2)⟩
  obtain ⟨D, hD⟩ := c92_finite_2d q p hqn hpn fun d => (hd d).trans (zpow_le_zpow_right₀ one_le_two (by norm_num))
  have ha := c92_dist_2d q p hqn hpn _ _ hD
  have hs : Spec.sqrDist (at2 q.real) (at2 p.real) = Spec.sqrDist (at2 p.real) (at2 q.real) := by
    unfold Spec.sqrDist; exact Finset.sum_congr rfl fun d _ => by ring
  rw [hs] at ha
  have hr : Rep (q.dist p) := F64.sqrt_rep _
  refine ⟨?_, Real.sqrt_nonneg _, ?_, ?_⟩
  · rw [hD] at hr ⊢; exact Num.mk' hr
  · unfold segF2
    rw [← hs]
    refine Real.sqrt_le_iff.2 ⟨by positivity, ?_⟩
    have h2 : Spec.sqrDist (at2 q.real) (at2 p.real) ≤ ∑ _d : Fin 2, ((2:ℝ) ^ (501 : ℤ)) ^ 2 := by
      unfold Spec.sqrDist
      refine Finset.sum_le_sum fun d _ => ?_
      rw [← sq_abs]
      exact pow_le_pow_left₀ (abs_nonneg _) (hd d) 2
    refine h2.trans ?_
    have e600 : (2:ℝ) ^ (600 : ℤ) = 2 ^ (501 : ℤ) * 2 ^ 99 := by
      rw [show (600 : ℤ) = 501 + 99 by norm_num, zpow_add₀ two_ne_zero, show (99:ℤ) = ((99:ℕ):ℤ) from rfl, zpow_natCast]
    rw [e600, mul_pow, Finset.sum_const]
    have : (0:ℝ) ≤ ((2:ℝ) ^ (501 : ℤ)) ^ 2 := by positivity
    generalize ((2:ℝ) ^ (501 : ℤ)) ^ 2 = T at *
    rw [show (Finset.univ : Finset (Fin 2)).card = 2 from rfl, nsmul_eq_mul]
    norm_num
    nlinarith only [this]
  · rw [hD, real_fin]
    exact ha

theorem seg_acc_3d {p q : Point3D F64} (hp : ∀ d, F64.Num (at3 p d) ∧ |toR (at3 p d)| ≤ 2 ^ (500 : ℤ))
    (hq : ∀ d, F64.Num (at3 q d) ∧ |toR (at3 q d)| ≤ 2 ^ (500 : ℤ)) :
    F64.Num (q.dist p) ∧ 0 ≤ segF3 p q ∧ segF3 p q ≤ 2 ^ (600 : ℤ) ∧
      |toR (q.dist p) - segF3 p q| ≤ 2 ^ (-50 : ℤ) * segF3 p q + 2 ^ (-536 : ℤ) := by
  have hpn : p.Num := ⟨(hp 0).1, (hp 1).1, (hp 2).1⟩
  have hqn : q.Num := ⟨(hq 0).1, (hq 1).1, (hq 2).1⟩
  have e1 : (2:ℝ) ^ (501 : ℤ) = 2 ^ (500 : ℤ) + 2 ^ (500 : ℤ) := by
    rw [show (501 : ℤ) = 1 + 500 by norm_num, zpow_add₀ two_ne_zero, zpow_one, two_mul]
  have hd : ∀ d, |at3 q.real d - at3 p.real d| ≤ 2 ^ (501 : ℤ) := by
    rw [e1]
    have hp' := fun d => (hp d).2
    have hq' := fun d => (hq d).2
    rw [Spec.forall_fin3] at hp' hq' ⊢
    exact ⟨(abs_sub _ _).trans (add_le_add hq'.1 hp'.1), (abs_sub _ _).trans (add_le_add hq'.2.1 hp'.2.1), (abs_sub _ _).trans (add_le_add hq'.2.2 hp'.2.2)⟩
  obtain ⟨D, hD⟩ := c92_finite_3d q p hqn hpn fun d => (hd d).trans (zpow_le_zpow_right₀ one_le_two (by norm_num))
  have ha := c92_dist_3d q p hqn hpn _ _ hD
  have hs : Spec.sqrDist (at3 q.real) (at3 p.real) = Spec.sqrDist (at3 p.real) (at3 q.real) := by
    unfold Spec.sqrDist; exact Finset.sum_congr rfl fun d _ => by ring
  rw [hs] at ha
  have hr : Rep (q.dist p) := F64.sqrt_rep _
  refine ⟨?_, Real.sqrt_nonneg _, ?_, ?_⟩
  · rw [hD] at hr ⊢; exact Num.mk' hr
  · unfold segF3
    rw [← hs]
    refine Real.sqrt_le_iff.2 ⟨by positivity, ?_⟩
    have h2 : Spec.sqrDist (at3 q.real) (at3 p.real) ≤ ∑ _d : Fin 3, ((2:ℝ) ^ (501 : ℤ)) ^ 2 := by
      unfold Spec.sqrDist
      refine Finset.sum_le_sum fun d _ => ?_
      rw [← sq_abs]
      exact pow_le_pow_left₀ (abs_nonneg _) (hd d) 2
    refine h2.trans ?_
    have e600 : (2:ℝ) ^ (600 : ℤ) = 2 ^ (501 : ℤ) * 2 ^ 99 := by
      rw [show (600 : ℤ) = 501 + 99 by norm_num, zpow_add₀ two_ne_zero, show (99:ℤ) = ((99:ℕ):ℤ) from rfl, zpow_natCast]
    rw [e600, mul_pow, Finset.sum_const]
    have : (0:ℝ) ≤ ((2:ℝ) ^ (501 : ℤ)) ^ 2 := by positivity
    generalize ((2:ℝ) ^ (501 : ℤ)) ^ 2 = T at *
    rw [show (Finset.univ : Finset (Fin 3)).card = 3 from rfl, nsmul_eq_mul]
    norm_num
    nlinarith only [this]
  · rw [hD, real_fin]
    exact ha

theorem zip_all {β γ : Type} {g : β → γ → ℝ} : ∀ (l : List β) (m : List γ), (∀ a b, 0 ≤ g a b) →
    ∀ x ∈ List.zipWith g l m, 0 ≤ x
  | [], _, _ => by simp
  | _ :: _, [], _ => by simp
  | a :: l, b :: m, h => by
    simp only [List.zipWith_cons_cons, List.mem_cons, forall_eq_or_imp]
    exact ⟨h a b, zip_all l m h⟩

theorem bound_mono {k n : ℕ} {r : ℝ} (h : k ≤ n) (hr : 0 ≤ r) :
    ((k:ℝ) + 1) * 2 ^ (-50 : ℤ) * r + k * 2 ^ (-535 : ℤ) ≤ (n + 1) * 2 ^ (-50 : ℤ) * r + n * 2 ^ (-535 : ℤ) := by
  have h' : (k:ℝ) ≤ n := Nat.cast_le.2 h
  have h1 : (0:ℝ) ≤ 2 ^ (-50 : ℤ) := by positivity
  have h2 : (0:ℝ) ≤ 2 ^ (-535 : ℤ) := by positivity
  gcongr

/-- C99: the length of a path of at most `2^52` points with coordinates of at most `2^500` is finite and the exact
length of the path up to a relative error of `n 2^-50` (and `n 2^-535`) -/
theorem c99_length_2d (l : List (Point2D F64)) (hn : l.length ≤ 2 ^ 52)
    (hl : ∀ p ∈ l, ∀ d, F64.Num (at2 p d) ∧ |toR (at2 p d)| ≤ 2 ^ (500 : ℤ)) :
    let r := (List.zipWith segF2 l l.tail).sum
    F64.Num (PointCloud2D.length ⟨l⟩) ∧
      |toR (PointCloud2D.length ⟨l⟩) - r| ≤ (l.length + 1) * 2 ^ (-50 : ℤ) * r + l.length * 2 ^ (-535 : ℤ) := by
  intro r
  rw [length_fold_2d]
  have hlen : (List.zipWith (fun a b : Point2D F64 => b.dist a) l l.tail).length ≤ l.length := by
    rw [List.length_zipWith]; exact min_le_left _ _
  have h := sum_acc _ _ (zip_forall₂ (f := fun a b : Point2D F64 => b.dist a) (g := segF2) l l.tail fun a ha b hb =>
    seg_acc_2d (hl a ha) (hl b (List.mem_of_mem_tail hb))) (hlen.trans hn)
  have hr : 0 ≤ r := List.sum_nonneg (zip_all l l.tail fun _ _ => Real.sqrt_nonneg _)
  exact ⟨h.1, h.2.trans (bound_mono hlen hr)⟩

/-- C99: the length of a polygon, including the closing segment -/
theorem c99_polygon_length_2d (l : List (Point2D F64)) (hn : l.length ≤ 2 ^ 52)
    (hl : ∀ p ∈ l, ∀ d, F64.Num (at2 p d) ∧ |toR (at2 p d)| ≤ 2 ^ (500 : ℤ)) :
    let r := (List.zipWith segF2 l (l.rotate 1)).sum
    ∃ s, Polygon.length2D ⟨⟨l⟩⟩ = some s ∧ F64.Num s ∧
      |toR s - r| ≤ (l.length + 1) * 2 ^ (-50 : ℤ) * r + l.length * 2 ^ (-535 : ℤ) := by
  match l, hn, hl with
  | [], _, _ => exact ⟨Scalar.zero, rfl, num_zero, by simp [toR_zero]⟩
  | a :: t, hn, hl =>
    intro r
    refine ⟨_, polygon_fold_2d a t, ?_⟩
    have hlen : (List.zipWith (fun a b : Point2D F64 => b.dist a) (a :: t) ((a :: t).rotate 1)).length ≤ (a :: t).length := by
      rw [List.length_zipWith]; exact min_le_left _ _
    have h := sum_acc _ _ (zip_forall₂ (f := fun a b : Point2D F64 => b.dist a) (g := segF2) (a :: t) ((a :: t).rotate 1)
      fun x hx y hy => seg_acc_2d (hl x hx) (hl y (List.mem_rotate.1 hy))) (hlen.trans hn)
    have hr : 0 ≤ r := List.sum_nonneg (zip_all (a :: t) ((a :: t).rotate 1) fun _ _ => Real.sqrt_nonneg _)
    exact ⟨h.1, h.2.trans (bound_mono hlen hr)⟩

theorem c99_length_3d (l : List (Point3D F64)) (hn : l.length ≤ 2 ^ 52)
    (hl : ∀ p ∈ l, ∀ d, F64.Num (at3 p d) ∧ |toR (at3 p d)| ≤ 2 ^ (500 : ℤ)) :
    let r := (List.zipWith segF3 l l.tail).sum
    F64.Num (PointCloud3D.length ⟨l⟩) ∧
      |toR (PointCloud3D.length ⟨l⟩) - r| ≤ (l.length + 1) * 2 ^ (-50 : ℤ) * r + l.length * 2 ^ (-535 : ℤ) := by
  intro r
  rw [length_fold_3d]
  have hlen : (List.zipWith (fun a b : Point3D F64 => b.dist a) l l.tail).length ≤ l.length := by
    rw [List.length_zipWith]; exact min_le_left _ _
  have h := sum_acc _ _ (zip_forall₂ (f := fun a b : Point3D F64 => b.dist a) (g := segF3) l l.tail fun a ha b hb =>
    seg_acc_3d (hl a ha) (hl b (List.mem_of_mem_tail hb))) (hlen.trans hn)
  have hr : 0 ≤ r := List.sum_nonneg (zip_all l l.tail fun _ _ => Real.sqrt_nonneg _)
  exact ⟨h.1, h.2.trans (bound_mono hlen hr)⟩

theorem c99_polygon_length_3d (l : List (Point3D F64)) (hn : l.length ≤ 2 ^ 52)
    (hl : ∀ p ∈ l, ∀ d, F64.Num (at3 p d) ∧ |toR (at3 p d)| ≤ 2 ^ (500 : ℤ)) :
    let r := (List.zipWith segF3 l (l.rotate 1)).sum
    ∃ s, Polygon.length3D ⟨⟨l⟩⟩ = some s ∧ F64.Num s ∧
      |toR s - r| ≤ (l.length + 1) * 2 ^ (-50 : ℤ) * r + l.length * 2 ^ (-535 : ℤ) := by
  match l, hn, hl with
  | [], _, _ => exact ⟨Scalar.zero, rfl, num_zero, by simp [toR_zero]⟩
  | a :: t, hn, hl =>
    intro r
    refine ⟨_, polygon_fold_3d a t, ?_⟩
    have hlen : (List.zipWith (fun a b : Point3D F64 => b.dist a) (a :: t) ((a :: t).rotate 1)).length ≤ (a :: t).length := by
      rw [List.length_zipWith]; exact min_le_left _ _
    have h := sum_acc _ _ (zip_forall₂ (f := fun a b : Point3D F64 => b.dist a) (g := segF3) (a :: t) ((a :: t).rotate 1)
      fun x hx y hy => seg_acc_3d (hl x hx) (hl y (List.mem_rotate.1 hy))) (hlen.trans hn)
    have hr : 0 ≤ r := List.sum_nonneg (zip_all (a :: t) ((a :: t).rotate 1) fun _ _ => Real.sqrt_nonneg _)
    exact ⟨h.1, h.2.trans (bound_mono hlen hr)⟩

/-- the conditions hold for a path of points with coordinates such as 0.1, -3 and 2.5 -/
example : let l : List (Point2D F64) := [⟨f (1/10), f (-3)⟩, ⟨f (5/2), f (1/10)⟩]
    l ≠ [] ∧ l.length ≤ 2 ^ 52 ∧ ∀ p ∈ l, ∀ d, F64.Num (at2 p d) ∧ |toR (at2 p d)| ≤ 2 ^ (500 : ℤ) := by
  have h3 : (3:ℝ) ≤ 2 ^ (500 : ℤ) := by
    refine le_trans ?_ (zpow_le_zpow_right₀ one_le_two (show (2:ℤ) ≤ 500 by norm_num)); norm_num
  have a1 := ex_num (1/10) false (3602879701896397 / 36028797018963968) (by decide +kernel)
  have a2 := ex_num (-3) true 3 (by decide +kernel)
  have a3 := ex_num (5/2) false (5/2) (by decide +kernel)
  refine ⟨by simp, by simp, ?_⟩
  intro p hp
  simp only [List.mem_cons, List.not_mem_nil, or_false] at hp
  rw [Fin.forall_fin_two]
  rcases hp with rfl | rfl
  · exact ⟨⟨a1.1, by rw [show at2 _ 0 = f (1/10) from rfl, a1.2]; refine le_trans ?_ h3; norm_num [F64.val, abs_le]⟩,
      ⟨a2.1, by rw [show at2 _ 1 = f (-3) from rfl, a2.2]; refine le_trans ?_ h3; norm_num [F64.val, abs_le]⟩⟩
  · exact ⟨⟨a3.1, by rw [show at2 _ 0 = f (5/2) from rfl, a3.2]; refine le_trans ?_ h3; norm_num [F64.val, abs_le]⟩,
      ⟨a1.1, by rw [show at2 _ 1 = f (1/10) from rfl, a1.2]; refine le_trans ?_ h3; norm_num [F64.val, abs_le]⟩⟩

/-- the same in three dimensions, for any bound from three on -/
example (M : ℝ) (hM : 3 ≤ M) : let l : List (Point3D F64) := [⟨f (1/10), f (-3), f 0⟩, ⟨f (5/2), f (1/10), f (-3)⟩]
    l ≠ [] ∧ l.length ≤ 2 ^ 52 ∧ ∀ p ∈ l, ∀ d, F64.Num (at3 p d) ∧ |toR (at3 p d)| ≤ M := by
  have a0 := ex_num 0 false 0 (by decide +kernel)
  have a1 := ex_num (1/10) false (3602879701896397 / 36028797018963968) (by decide +kernel)
  have a2 := ex_num (-3) true 3 (by decide +kernel)
  have a3 := ex_num (5/2) false (5/2) (by decide +kernel)
  refine ⟨by simp, by simp, ?_⟩
  intro p hp d
  simp only [List.mem_cons, List.not_mem_nil, or_false] at hp
  suffices F64.Num (at3 p d) ∧ |toR (at3 p d)| ≤ 3 from ⟨this.1, this.2.trans hM⟩
  revert d
  rcases hp with rfl | rfl <;> simp only [Spec.forall_fin3, at3_zero, at3_one, at3_two, a0, a1, a2, a3, F64.val] <;> norm_num [abs_le]

end R3D
