import Verif.Lemmas.F64Near
import Verif.Props.RayTriangle
import Verif.Props.BoxFloat
/-!
C105: rays against triangles of doubles.

`intersectionRayTriangle` on finite doubles, against the exact geometry of the same doubles: `Meets` gives the position
`t` on the ray and the barycentric coordinates of the point where the line meets the plane (they exist, `c105_meets`).
For a triangle and a ray that are not too thin and not too flat (`Scene`) the function never panics, reports only points
next to the exact one, only in front of the anchor and inside of the triangle up to the margins, and reports every hit
that keeps the margins (`c105_ray_triangle`); meshes face by face (`c105_ray_mesh`). Without a margin rounding loses hits
(`c105_violated_rounding`).
-/
namespace R3D
open Scalar Spec F64

theorem sum_abs_le_two_sqrt (a b c : ℝ) : |a| + |b| + |c| ≤ 2 * √(a ^ 2 + b ^ 2 + c ^ 2) := by
  have h : 0 ≤ a ^ 2 + b ^ 2 + c ^ 2 := by positivity
  have h1 := Real.sq_sqrt h
  have h2 := Real.sqrt_nonneg (a ^ 2 + b ^ 2 + c ^ 2)
  rw [← sq_abs a, ← sq_abs b, ← sq_abs c] at *
  have ha := abs_nonneg a; have hb := abs_nonneg b; have hc := abs_nonneg c
  generalize |a| = a at *
  generalize |b| = b at *
  generalize |c| = c at *
  refine abs_le_of_sq_le_sq' ?_ (by positivity) |>.2
  nlinarith [sq_nonneg (a - b), sq_nonneg (a - c), sq_nonneg (b - c)]

/-- lengths of vectors that are close are close -/
theorem len_close {a b c x y z δ : ℝ} (h1 : |a - x| ≤ δ) (h2 : |b - y| ≤ δ) (h3 : |c - z| ≤ δ) :
    |√(a ^ 2 + b ^ 2 + c ^ 2) - √(x ^ 2 + y ^ 2 + z ^ 2)| ≤ 2 * δ := by
  have s1 := sum_abs_le_two_sqrt a b c
  have s2 := sum_abs_le_two_sqrt x y z
  have q1 := Real.sq_sqrt (show 0 ≤ a ^ 2 + b ^ 2 + c ^ 2 by positivity)
  have q2 := Real.sq_sqrt (show 0 ≤ x ^ 2 + y ^ 2 + z ^ 2 by positivity)
  have p1 := Real.sqrt_nonneg (a ^ 2 + b ^ 2 + c ^ 2)
  have p2 := Real.sqrt_nonneg (x ^ 2 + y ^ 2 + z ^ 2)
  generalize √(a ^ 2 + b ^ 2 + c ^ 2) = A at *
  generalize √(x ^ 2 + y ^ 2 + z ^ 2) = B at *
  have hδ := (abs_nonneg _).trans h1
  have key : ∀ s t : ℝ, |s - t| ≤ δ → |s ^ 2 - t ^ 2| ≤ δ * (|s| + |t|) := by
    intro s t h
    rw [show s ^ 2 - t ^ 2 = (s - t) * (s + t) by ring, abs_mul]
    exact mul_le_mul h (abs_add_le _ _) (abs_nonneg _) hδ
  have hd : |A ^ 2 - B ^ 2| ≤ δ * (2 * A + 2 * B) := by
    rw [q1, q2, show a ^ 2 + b ^ 2 + c ^ 2 - (x ^ 2 + y ^ 2 + z ^ 2) = (a ^ 2 - x ^ 2) + (b ^ 2 - y ^ 2) + (c ^ 2 - z ^ 2) by ring]
    have m1 := abs_add_le ((a ^ 2 - x ^ 2) + (b ^ 2 - y ^ 2)) (c ^ 2 - z ^ 2)
    have m2 := abs_add_le (a ^ 2 - x ^ 2) (b ^ 2 - y ^ 2)
    have := mul_le_mul_of_nonneg_left (add_le_add s1 s2) hδ
    linarith [key a x h1, key b y h2, key c z h3]
  rcases eq_or_lt_of_le (add_nonneg p1 p2) with h0 | h0
  · have e1 : A = 0 := by linarith
    have e2 : B = 0 := by linarith
    rw [e1, e2]; simpa using hδ
  · rw [show A ^ 2 - B ^ 2 = (A - B) * (A + B) by ring, abs_mul, abs_of_pos h0] at hd
    exact le_of_mul_le_mul_right (by linarith) h0

namespace F64

/-- normalising a vector known up to an error -/
theorem NearV.norm {p : Point3D F64} {v : Point3D ℝ} {X δ : ℝ} (hp : NearV p v X δ) (h1 : 2 ^ (-479 : ℤ) ≤ len v) (h2 : len v ≤ 2 ^ (499 : ℤ))
    (hδ : 4 * δ ≤ len v) : ∃ n, Norm3D.new p = some (.ok n) ∧ NearV n (v.smul (1 / len v)) 1 (2 ^ (-48 : ℤ) + 4 * δ / len v) := by
  have hlen : len3 p = √(toR p.x ^ 2 + toR p.y ^ 2 + toR p.z ^ 2) := by
    unfold len3
    simp [Spec.sqrDist, Fin.sum_univ_three, Point3D.real]
  have hc := len_close (hp 0).err (hp 1).err (hp 2).err
  simp only [at3_zero, at3_one, at3_two] at hc
  rw [← hlen, show √(v.x ^ 2 + v.y ^ 2 + v.z ^ 2) = len v from rfl] at hc
  have hL : 0 < len v := lt_of_lt_of_le (zpow_pos two_pos _) h1
  have hd := (hp 0).δ0
  have hc1 := abs_le.1 hc
  have e1 : (2:ℝ) ^ (-479 : ℤ) = 2 * 2 ^ (-480 : ℤ) := by rw [← zpow_one_add₀ two_ne_zero]; norm_num
  have e2 : (2:ℝ) ^ (500 : ℤ) = 2 * 2 ^ (499 : ℤ) := by rw [← zpow_one_add₀ two_ne_zero]; norm_num
  obtain ⟨n, e, hn⟩ := c100_norm_3d p ⟨(hp 0).num, (hp 1).num, (hp 2).num⟩ (by
    rw [e1] at h1
    generalize (2:ℝ) ^ (-480 : ℤ) = T at *
    linarith only [hc1.1, hδ, h1]) (by
    rw [e2]
    generalize (2:ℝ) ^ (499 : ℤ) = T at *
    linarith only [hc1.2, hδ, h2, hL])
  refine ⟨n, e, fun d => ?_⟩
  have hat : at3 (v.smul (1 / len v)) d = at3 v d / len v := by
    revert d; rw [forall_fin3]; simp [Point3D.smul, div_eq_inv_mul]
  rw [hat]
  have hcv : |at3 v d| ≤ len v := by
    revert d; rw [forall_fin3]
    refine ⟨fun _ => ?_, fun _ => ?_, fun _ => ?_⟩ <;> refine Real.abs_le_sqrt ?_ <;> simp only [at3_zero, at3_one, at3_two] <;>
      nlinarith [sq_nonneg v.x, sq_nonneg v.y, sq_nonneg v.z]
  have hcp := coord_le_3d p d
  refine ⟨(hn d).1, by rw [abs_div, abs_of_pos hL, div_le_one hL]; exact hcv, ?_⟩
  have hl0 : 0 < len3 p := by linarith [hc1.1]
  have e3 : toR (at3 n d) - at3 v d / len v = (toR (at3 n d) - toR (at3 p d) / len3 p) +
      ((toR (at3 p d) - at3 v d) / len v + toR (at3 p d) / len3 p * ((len v - len3 p) / len v)) := by
    field_simp; ring
  have k1 : |(toR (at3 p d) - at3 v d) / len v| ≤ δ / len v := by
    rw [abs_div, abs_of_pos hL]; exact div_le_div_of_nonneg_right (hp d).err hL.le
  have k2 : |toR (at3 p d) / len3 p * ((len v - len3 p) / len v)| ≤ 1 * (2 * δ / len v) := by
    rw [abs_mul]
    refine mul_le_mul ?_ ?_ (abs_nonneg _) zero_le_one
    · rw [abs_div, abs_of_pos hl0, div_le_one hl0]; exact hcp
    · rw [abs_div, abs_of_pos hL, abs_sub_comm]; exact div_le_div_of_nonneg_right hc hL.le
  rw [e3]
  have m1 := abs_add_le (toR (at3 n d) - toR (at3 p d) / len3 p) ((toR (at3 p d) - at3 v d) / len v + toR (at3 p d) / len3 p * ((len v - len3 p) / len v))
  have m2 := abs_add_le ((toR (at3 p d) - at3 v d) / len v) (toR (at3 p d) / len3 p * ((len v - len3 p) / len v))
  have k3 := (hn d).2
  have k4 : 4 * δ / len v = 4 * (δ / len v) := by ring
  have k5 : 2 * δ / len v = 2 * (δ / len v) := by ring
  have k6 : 0 ≤ δ / len v := div_nonneg hd hL.le
  rw [k4]
  rw [k5] at k2
  generalize (2:ℝ) ^ (-48 : ℤ) = T at *
  linarith only [m1, m2, k1, k2, k3, k6]

end F64

theorem z_two (n : ℕ) : (2:ℝ) ^ (-(n : ℤ)) = 1 / 2 ^ n := by rw [zpow_neg, one_div]; norm_cast

/-! ### specification -/

namespace Spec
/-- a vector orthogonal to the triangle, as long as twice its area -/
noncomputable def areaVec (v1 v2 v3 : Point3D F64) : Point3D ℝ :=
  ⟨(toR v2.y - toR v1.y) * (toR v3.z - toR v1.z) - (toR v2.z - toR v1.z) * (toR v3.y - toR v1.y),
   (toR v2.z - toR v1.z) * (toR v3.x - toR v1.x) - (toR v2.x - toR v1.x) * (toR v3.z - toR v1.z),
   (toR v2.x - toR v1.x) * (toR v3.y - toR v1.y) - (toR v2.y - toR v1.y) * (toR v3.x - toR v1.x)⟩

/-- A scene: `D` bounds the distance of the anchor to the first corner, `E` the edges, in every coordinate; `K` says how
thin the triangle (`E² ≤ K · 2 · area`) and how flat the ray may be. Nothing is farther from the origin than `2^14 D`. -/
structure Scene (anchor dir v1 v2 v3 : Point3D F64) (D E K : ℝ) : Prop where
  num : anchor.Num ∧ dir.Num ∧ v1.Num ∧ v2.Num ∧ v3.Num
  far : ∀ d, |toR (at3 anchor d)| ≤ 2 ^ 14 * D ∧ |toR (at3 v1 d)| ≤ 2 ^ 14 * D ∧ |toR (at3 v2 d)| ≤ 2 ^ 14 * D ∧ |toR (at3 v3 d)| ≤ 2 ^ 14 * D
  dir1 : ∀ d, |toR (at3 dir d)| ≤ 1
  edge : ∀ d, |toR (at3 v2 d) - toR (at3 v1 d)| ≤ E ∧ |toR (at3 v3 d) - toR (at3 v2 d)| ≤ E ∧ |toR (at3 v1 d) - toR (at3 v3 d)| ≤ E
  dist : ∀ d, |toR (at3 anchor d) - toR (at3 v1 d)| ≤ D
  le : E ≤ D
  small : 2 ^ (-100 : ℤ) ≤ E
  large : D ≤ 2 ^ (100 : ℤ)
  one : 1 ≤ K
  cond : K ≤ 2 ^ 10
  /-- not too thin -/
  thin : E * E ≤ K * len (areaVec v1 v2 v3)
  /-- not too flat -/
  flat : len (areaVec v1 v2 v3) ≤
    K * |(areaVec v1 v2 v3).x * toR dir.x + (areaVec v1 v2 v3).y * toR dir.y + (areaVec v1 v2 v3).z * toR dir.z|

/-- the point `anchor + t dir` has the barycentric coordinates `l1`, `l2`, `l3` in the plane of the triangle -/
def Meets (anchor dir v1 v2 v3 : Point3D F64) (t l1 l2 l3 : ℝ) : Prop :=
  l1 + l2 + l3 = 1 ∧ ∀ d, toR (at3 anchor d) + t * toR (at3 dir d) = l1 * toR (at3 v1 d) + l2 * toR (at3 v2 d) + l3 * toR (at3 v3 d)
end Spec

section
variable {anchor dir v1 v2 v3 : Point3D F64} {D E K : ℝ} (S : Scene anchor dir v1 v2 v3 D E K)
include S

theorem Spec.Scene.E0 : 0 < E := lt_of_lt_of_le (zpow_pos two_pos _) S.small
theorem Spec.Scene.D0 : 0 < D := S.E0.trans_le S.le


theorem Spec.Scene.len_pos : 0 < len (areaVec v1 v2 v3) := by
  have h1 := S.thin
  have h2 := mul_pos S.E0 S.E0
  have h3 : 0 < K := by linarith [S.one]
  by_contra hc
  have := mul_nonpos_of_nonneg_of_nonpos h3.le (not_lt.1 hc)
  linarith

theorem Spec.Scene.normal : ∃ n, normalOfFace v1 v2 v3 = some n ∧
    NearV n ((areaVec v1 v2 v3).smul (1 / len (areaVec v1 v2 v3))) 1 (K / 2 ^ 45) := by
  have hE := S.E0; have hD := S.D0; have hK := S.one
  have hs := S.small; have hl := S.large; have hc := S.cond; have hDE := S.le
  obtain ⟨-, -, n1, n2, n3⟩ := S.num
  have b1 : E ≤ 2 ^ (100 : ℤ) := hDE.trans hl
  have b2 : (2:ℝ) ^ (100 : ℤ) ≤ 2 ^ (1023 : ℤ) := zpow_le_zpow_right₀ one_le_two (by norm_num)
  have e12 : NearV (conn v1 v2) (conn v1.real v2.real) E (uu * E) := by
    unfold NearV
    have h := S.edge
    rw [forall_fin3] at h ⊢
    exact ⟨.sub_exact n2.1 n1.1 h.1.1 (b1.trans b2), .sub_exact n2.2.1 n1.2.1 h.2.1.1 (b1.trans b2), .sub_exact n2.2.2 n1.2.2 h.2.2.1 (b1.trans b2)⟩
  have e23 : NearV (conn v2 v3) (conn v2.real v3.real) E (uu * E) := by
    unfold NearV
    have h := S.edge
    rw [forall_fin3] at h ⊢
    exact ⟨.sub_exact n3.1 n2.1 h.1.2.1 (b1.trans b2), .sub_exact n3.2.1 n2.2.1 h.2.1.2.1 (b1.trans b2), .sub_exact n3.2.2 n2.2.2 h.2.2.2.1 (b1.trans b2)⟩
  have hu : uu * E ≤ E := by nlinarith [uu_le]
  have hEE1 : (2:ℝ) ^ (-200 : ℤ) ≤ E * E := by
    have : (2:ℝ) ^ (-200 : ℤ) = 2 ^ (-100 : ℤ) * 2 ^ (-100 : ℤ) := by rw [← zpow_add₀ two_ne_zero]; norm_num
    rw [this]; exact mul_le_mul hs hs (zpow_pos two_pos _).le hE.le
  have hEE2 : E * E ≤ 2 ^ (200 : ℤ) := by
    have : (2:ℝ) ^ (200 : ℤ) = 2 ^ (100 : ℤ) * 2 ^ (100 : ℤ) := by rw [← zpow_add₀ two_ne_zero]; norm_num
    rw [this]; exact mul_le_mul b1 b1 hE.le (zpow_pos two_pos _).le
  have hx := e12.cross e23 hu hu ((zpow_le_zpow_right₀ one_le_two (by norm_num)).trans hEE1) (hEE2.trans (zpow_le_zpow_right₀ one_le_two (by norm_num)))
  have hv : (conn v1.real v2.real).cross (conn v2.real v3.real) = areaVec v1 v2 v3 := by
    simp only [conn, Point3D.cross, areaVec, Point3D.real, Point3D.mk.injEq]
    refine ⟨?_, ?_, ?_⟩ <;> ring
  rw [hv] at hx
  have hL := S.len_pos
  have hth := S.thin
  -- the error is 41 roundings of the square of the edges
  have hδ : 6 * E * (uu * E) + 3 * E * (uu * E) + 32 * uu * (E * E) = 41 * uu * (E * E) := by ring
  rw [hδ] at hx
  have hKL : 41 * uu * (E * E) ≤ 41 * uu * (K * len (areaVec v1 v2 v3)) := mul_le_mul_of_nonneg_left hth (by linarith [uu_pos])
  have hle : len (areaVec v1 v2 v3) ≤ 2 ^ (499 : ℤ) := by
    have c := fun d => (hx d).le
    rw [forall_fin3] at c
    have : len (areaVec v1 v2 v3) ≤ |(areaVec v1 v2 v3).x| + |(areaVec v1 v2 v3).y| + |(areaVec v1 v2 v3).z| := by
      refine Real.sqrt_le_iff.2 ⟨by positivity, ?_⟩
      rw [← sq_abs (areaVec v1 v2 v3).x, ← sq_abs (areaVec v1 v2 v3).y, ← sq_abs (areaVec v1 v2 v3).z]
      nlinarith [abs_nonneg (areaVec v1 v2 v3).x, abs_nonneg (areaVec v1 v2 v3).y, abs_nonneg (areaVec v1 v2 v3).z,
        mul_nonneg (abs_nonneg (areaVec v1 v2 v3).x) (abs_nonneg (areaVec v1 v2 v3).y), mul_nonneg (abs_nonneg (areaVec v1 v2 v3).x) (abs_nonneg (areaVec v1 v2 v3).z),
        mul_nonneg (abs_nonneg (areaVec v1 v2 v3).y) (abs_nonneg (areaVec v1 v2 v3).z)]
    simp only [at3_zero, at3_one, at3_two] at c
    have h6 : (2:ℝ) ^ (499 : ℤ) = 2 ^ 299 * 2 ^ (200 : ℤ) := by rw [← zpow_natCast, ← zpow_add₀ two_ne_zero]; norm_num
    have h7 : (6:ℝ) ≤ 2 ^ 299 := le_trans (by norm_num : (6:ℝ) ≤ 2 ^ 3) (pow_le_pow_right₀ one_le_two (by norm_num))
    have h8 : (0:ℝ) < 2 ^ (200 : ℤ) := zpow_pos two_pos _
    rw [h6]
    have := mul_le_mul_of_nonneg_right h7 h8.le
    generalize (2:ℝ) ^ 299 = T at *
    generalize (2:ℝ) ^ (200 : ℤ) = T' at *
    linarith only [this, hEE2, c.1, c.2.1, c.2.2, ‹len _ ≤ _›]
  have hge : (2:ℝ) ^ (-479 : ℤ) ≤ len (areaVec v1 v2 v3) := by
    have h6 : (2:ℝ) ^ (-200 : ℤ) = 2 ^ 10 * 2 ^ (-210 : ℤ) := by rw [← zpow_natCast, ← zpow_add₀ two_ne_zero]; norm_num
    have h7 : (2:ℝ) ^ (-479 : ℤ) ≤ 2 ^ (-210 : ℤ) := zpow_le_zpow_right₀ one_le_two (by norm_num)
    rw [h6] at hEE1
    have := mul_le_mul_of_nonneg_right hc hL.le
    generalize (2:ℝ) ^ (-479 : ℤ) = T at *
    generalize (2:ℝ) ^ (-210 : ℤ) = T' at *
    norm_num at hEE1 this
    linarith only [hEE1, this, h7, hth]
  obtain ⟨n, e, hn⟩ := hx.norm hge hle (by
    have := mul_le_mul_of_nonneg_right hc hL.le
    rw [uu_53] at *
    norm_num at this hKL ⊢
    linarith only [this, hKL, hL])
  refine ⟨n, by simp [normalOfFace, Norm3D.newOrZ, e], fun d => (hn d).mono le_rfl ?_⟩
  rw [show (2:ℝ) ^ (-48 : ℤ) = 1 / 2 ^ 48 from z_two 48]
  have h9 : 4 * (41 * uu * (E * E)) / len (areaVec v1 v2 v3) ≤ 164 * uu * K := by
    rw [div_le_iff₀ hL]
    linarith only [hKL]
  rw [uu_53] at h9 ⊢
  linarith only [h9, hK]


omit S in
theorem meets_dot {t l1 l2 l3 : ℝ} (hm : Meets anchor dir v1 v2 v3 t l1 l2 l3) :
    (areaVec v1 v2 v3).x * (toR anchor.x - toR v1.x) + (areaVec v1 v2 v3).y * (toR anchor.y - toR v1.y) +
      (areaVec v1 v2 v3).z * (toR anchor.z - toR v1.z) +
      t * ((areaVec v1 v2 v3).x * toR dir.x + (areaVec v1 v2 v3).y * toR dir.y + (areaVec v1 v2 v3).z * toR dir.z) = 0 := by
  obtain ⟨h1, h2⟩ := hm
  rw [forall_fin3] at h2
  simp only [at3_zero, at3_one, at3_two] at h2
  obtain ⟨hx, hy, hz⟩ := h2
  obtain rfl : l1 = 1 - l2 - l3 := by linarith
  simp only [areaVec]
  linear_combination ((toR v2.y - toR v1.y) * (toR v3.z - toR v1.z) - (toR v2.z - toR v1.z) * (toR v3.y - toR v1.y)) * hx +
    ((toR v2.z - toR v1.z) * (toR v3.x - toR v1.x) - (toR v2.x - toR v1.x) * (toR v3.z - toR v1.z)) * hy +
    ((toR v2.x - toR v1.x) * (toR v3.y - toR v1.y) - (toR v2.y - toR v1.y) * (toR v3.x - toR v1.x)) * hz

theorem Spec.Scene.K3 : 1 ≤ K ^ 2 ∧ K ≤ K ^ 2 ∧ K ^ 2 ≤ K ^ 3 ∧ K ≤ K ^ 3 ∧ 1 ≤ K ^ 3 := by
  have hK := S.one
  have h2 : 1 ≤ K ^ 2 := one_le_pow₀ hK
  have h3 : K ≤ K ^ 2 := by nlinarith
  have h4 : K ^ 2 ≤ K ^ 3 := by nlinarith
  exact ⟨h2, h3, h4, h3.trans h4, h2.trans (by nlinarith)⟩

/-- the way to the plane -/
theorem Spec.Scene.param {n : Point3D F64} (hn : NearV n ((areaVec v1 v2 v3).smul (1 / len (areaVec v1 v2 v3))) 1 (K / 2 ^ 45))
    {t l1 l2 l3 : ℝ} (hm : Meets anchor dir v1 v2 v3 t l1 l2 l3) :
    Scalar.eq (n.dot dir) Scalar.zero = false ∧ Near (-(n.dot (anchor.sub v1)) / n.dot dir) t (3 * K * D) (K ^ 3 * D / 2 ^ 38) := by
  have hE := S.E0; have hD := S.D0; have hK := S.one
  have hs := S.small; have hl := S.large; have hc := S.cond; have hDE := S.le
  obtain ⟨na, nd, n1, n2, n3⟩ := S.num
  have hL := S.len_pos
  have b2 : (2:ℝ) ^ (100 : ℤ) ≤ 2 ^ (1023 : ℤ) := zpow_le_zpow_right₀ one_le_two (by norm_num)
  have b3 : (2:ℝ) ^ (100 : ℤ) ≤ 2 ^ (1000 : ℤ) := zpow_le_zpow_right₀ one_le_two (by norm_num)
  have b4 : (2:ℝ) ^ (-1000 : ℤ) ≤ 2 ^ (-100 : ℤ) := zpow_le_zpow_right₀ one_le_two (by norm_num)
  have b5 : (2:ℝ) ^ (-1000 : ℤ) ≤ 1 := by rw [← zpow_zero (2:ℝ)]; exact zpow_le_zpow_right₀ one_le_two (by norm_num)
  have b6 : (1:ℝ) ≤ 2 ^ (100 : ℤ) := by rw [← zpow_zero (2:ℝ)]; exact zpow_le_zpow_right₀ one_le_two (by norm_num)
  have hw : NearV (anchor.sub v1) (anchor.real.sub v1.real) D (uu * D) := by
    unfold NearV
    have h := S.dist
    rw [forall_fin3] at h ⊢
    exact ⟨.sub_exact na.1 n1.1 h.1 (hl.trans b2), .sub_exact na.2.1 n1.2.1 h.2.1 (hl.trans b2), .sub_exact na.2.2 n1.2.2 h.2.2 (hl.trans b2)⟩
  have hdir : NearV dir dir.real 1 0 := by
    unfold NearV
    have h := S.dir1
    rw [forall_fin3] at h ⊢
    exact ⟨.self nd.1 h.1, .self nd.2.1 h.2.1, .self nd.2.2 h.2.2⟩
  have hn1 : K / 2 ^ 45 ≤ 1 := by norm_num at hc ⊢; linarith only [hc]
  have hA := (hn.dot hw hn1 (by nlinarith [uu_le]) (by rw [one_mul]; exact b4.trans (hs.trans hDE)) (by rw [one_mul]; exact hl.trans b3)).neg
  have hB := hn.dot hdir hn1 zero_le_one (by rw [one_mul]; exact b5) (by rw [one_mul]; exact b6.trans b3)
  have u1 := uu_53
  have hA' := hA.mono (Y := 3 * D) (ε := K * D / 2 ^ 42) (by linarith) (by
    rw [u1]
    have : D ≤ K * D := by nlinarith
    nlinarith only [this, hD])
  have hB' := hB.mono (Y := 3) (ε := K / 2 ^ 42) (by linarith) (by
    rw [u1]
    linarith only [hK])
  generalize hN : areaVec v1 v2 v3 = N at *
  have eA : -((N.smul (1 / len N)).dot (anchor.real.sub v1.real)) =
      -(N.x * (toR anchor.x - toR v1.x) + N.y * (toR anchor.y - toR v1.y) + N.z * (toR anchor.z - toR v1.z)) / len N := by
    simp only [Point3D.dot, Point3D.smul, Point3D.sub, Point3D.real]; field_simp; try ring
  have eB : (N.smul (1 / len N)).dot dir.real = (N.x * toR dir.x + N.y * toR dir.y + N.z * toR dir.z) / len N := by
    simp only [Point3D.dot, Point3D.smul, Point3D.real]; field_simp
  have hfl := S.flat
  have hmd := meets_dot hm
  rw [hN] at hfl hmd
  generalize hb : N.x * toR dir.x + N.y * toR dir.y + N.z * toR dir.z = β at *
  have hy : 1 / K ≤ |(N.smul (1 / len N)).dot dir.real| := by
    rw [eB, abs_div, abs_of_pos hL, div_le_div_iff₀ (by linarith) hL]
    linarith
  have hK0 : 0 < K := by linarith
  have hK2 : K ^ 2 ≤ 2 ^ 20 := by
    have := pow_le_pow_left₀ hK0.le hc 2
    norm_num at this ⊢; exact this
  have hdiv := hA'.div hB' hy (by
    rw [le_div_iff₀ hK0]
    norm_num at hK2 ⊢; nlinarith only [hK2]) (by positivity) (by
    have : 2 * (3 * D + K * D / 2 ^ 42) / (1 / K) ≤ 2 ^ 20 * D := by
      rw [div_div_eq_mul_div, div_one]
      norm_num at hK2 hc ⊢
      nlinarith only [hK2, hc, hD, mul_pos hD hK0, mul_le_mul_of_nonneg_left hK2 hD.le, mul_le_mul_of_nonneg_left hc hD.le]
    refine this.trans ?_
    have h6 : (2:ℝ) ^ (1023 : ℤ) = 2 ^ 923 * 2 ^ (100 : ℤ) := by rw [← zpow_natCast, ← zpow_add₀ two_ne_zero]; norm_num
    rw [h6]
    exact mul_le_mul (pow_le_pow_right₀ one_le_two (by norm_num)) hl hD.le (by positivity))
  have ht : -((N.smul (1 / len N)).dot (anchor.real.sub v1.real)) / (N.smul (1 / len N)).dot dir.real = t := by
    have hβ : β ≠ 0 := by
      intro h0
      rw [h0, abs_zero, mul_zero] at hfl
      linarith
    rw [eA, eB, div_div_div_cancel_right₀ hL.ne', div_eq_iff hβ]
    linarith only [hmd]
  rw [ht] at hdiv
  refine ⟨?_, hdiv.mono (le_of_eq ?_) ?_⟩
  · rw [← Bool.not_eq_true, num_eq hB'.num num_zero, toR_zero]
    intro h0
    have h1 := hB'.err
    rw [h0, zero_sub, abs_neg] at h1
    have h2 : 1 / K ≤ K / 2 ^ 42 := hy.trans h1
    rw [div_le_div_iff₀ hK0 (by positivity)] at h2
    norm_num at h2 hK2
    nlinarith only [h2, hK2]
  · field_simp
  · have h75 : (2:ℝ) ^ (-1075 : ℤ) ≤ 1 / 2 ^ 60 * D := by
      have h6 : (2:ℝ) ^ (-1075 : ℤ) ≤ 2 ^ (-160 : ℤ) := zpow_le_zpow_right₀ one_le_two (by norm_num)
      have h7 : (2:ℝ) ^ (-160 : ℤ) = 1 / 2 ^ 60 * 2 ^ (-100 : ℤ) := by
        rw [← z_two, ← zpow_add₀ two_ne_zero]; norm_num
      rw [h7] at h6
      refine h6.trans (mul_le_mul_of_nonneg_left (hs.trans hDE) (by positivity))
    obtain ⟨k1, k2, k3, k4, k5⟩ := S.K3
    have m1 : D ≤ K ^ 3 * D := by nlinarith
    have m2 : K * D ≤ K ^ 3 * D := mul_le_mul_of_nonneg_right k4 hD.le
    have m3 : K ^ 2 * D ≤ K ^ 3 * D := mul_le_mul_of_nonneg_right k3 hD.le
    rw [u1]
    have r1 : 2 * (K * D / 2 ^ 42) / (1 / K) = 2 / 2 ^ 42 * (K ^ 2 * D) := by field_simp
    have r2 : 2 * (3 * D) * (K / 2 ^ 42) / (1 / K * (1 / K)) = 6 / 2 ^ 42 * (K ^ 3 * D) := by field_simp; norm_num
    have r3 : 2 * (3 * D + K * D / 2 ^ 42) / (1 / K) = 6 * (K * D) + 2 / 2 ^ 42 * (K ^ 2 * D) := by field_simp; try ring
    rw [r1, r2, r3]
    generalize (2:ℝ) ^ (-1075 : ℤ) = T at *
    generalize K ^ 3 * D = P at *
    generalize K ^ 2 * D = Q at *
    generalize K * D = R at *
    linarith only [h75, m1, m2, m3, hD]


theorem Spec.Scene.tiny : (2:ℝ) ^ (-1075 : ℤ) ≤ 1 / 2 ^ 60 * D := by
  have h6 : (2:ℝ) ^ (-1075 : ℤ) ≤ 2 ^ (-160 : ℤ) := zpow_le_zpow_right₀ one_le_two (by norm_num)
  have h7 : (2:ℝ) ^ (-160 : ℤ) = 1 / 2 ^ 60 * 2 ^ (-100 : ℤ) := by
    rw [← z_two, ← zpow_add₀ two_ne_zero]; norm_num
  rw [h7] at h6
  exact h6.trans (mul_le_mul_of_nonneg_left (S.small.trans S.le) (by positivity))

/-- everything is far from overflowing -/
theorem Spec.Scene.room {x : ℝ} (h : x ≤ 2 ^ 60 * D) : x ≤ 2 ^ (1023 : ℤ) := by
  have h6 : (2:ℝ) ^ (1023 : ℤ) = 2 ^ 923 * 2 ^ (100 : ℤ) := by rw [← zpow_natCast, ← zpow_add₀ two_ne_zero]; norm_num
  rw [h6]
  exact h.trans (mul_le_mul (pow_le_pow_right₀ one_le_two (by norm_num)) S.large S.D0.le (by positivity))

theorem Spec.Scene.pows : D ≤ K ^ 3 * D ∧ K * D ≤ K ^ 3 * D ∧ K ^ 3 * D ≤ 2 ^ 20 * (K * D) ∧ K ^ 3 * D ≤ 2 ^ 30 * D := by
  have hD := S.D0; have hK := S.one; have hc := S.cond
  obtain ⟨k1, k2, k3, k4, k5⟩ := S.K3
  have hK2 : K ^ 2 ≤ 2 ^ 20 := by
    have := pow_le_pow_left₀ (by linarith) hc 2
    norm_num at this ⊢; exact this
  have hK3 : K ^ 3 ≤ 2 ^ 30 := by
    have := pow_le_pow_left₀ (by linarith) hc 3
    norm_num at this ⊢; exact this
  refine ⟨by nlinarith, mul_le_mul_of_nonneg_right k4 hD.le, ?_, mul_le_mul_of_nonneg_right hK3 hD.le⟩
  have := mul_le_mul_of_nonneg_right hK2 (mul_nonneg (by linarith : (0:ℝ) ≤ K) hD.le)
  nlinarith only [this]

/-- the point on the plane -/
theorem Spec.Scene.point {r : F64} {t : ℝ} (hr : Near r t (3 * K * D) (K ^ 3 * D / 2 ^ 38)) (d : Fin 3) :
    Near (at3 (anchor.add (dir.smul r)) d) (toR (at3 anchor d) + t * toR (at3 dir d)) (2 ^ 14 * D + 3 * K * D) (K ^ 3 * D / 2 ^ 36) := by
  have hD := S.D0; have hK := S.one
  obtain ⟨m1, m2, m3, m4⟩ := S.pows
  have hT := S.tiny
  have na : F64.Num (at3 anchor d) := by
    have := S.num.1; revert d; rw [forall_fin3]; exact this
  have nd : F64.Num (at3 dir d) := by
    have := S.num.2.1; clear na; revert d; rw [forall_fin3]; exact this
  have e : at3 (anchor.add (dir.smul r)) d = at3 anchor d + r * at3 dir d := by
    revert d; rw [forall_fin3]; exact ⟨fun _ _ => rfl, fun _ _ => rfl, fun _ _ => rfl⟩
  rw [e]
  have u1 := uu_53
  have KD : 3 * K * D = 3 * (K * D) := by ring
  have hm := hr.mul (Near.self nd (S.dir1 d)) (S.room (by
    rw [KD]
    generalize K ^ 3 * D = P at *
    generalize K * D = R at *
    linarith only [m2, m4, hD]))
  have hm' := hm.mono (Y := 3 * K * D) (ε := K ^ 3 * D / 2 ^ 37) (by linarith) (by
    rw [u1, KD]
    generalize K ^ 3 * D = P at *
    generalize K * D = R at *
    generalize (2:ℝ) ^ (-1075 : ℤ) = T at *
    linarith only [m1, m2, hD, hT])
  have ha := (Near.self na (S.far d).1).add hm' (S.room (by
    rw [KD]
    generalize K ^ 3 * D = P at *
    generalize K * D = R at *
    linarith only [m2, m4, hD]))
  refine ha.mono le_rfl ?_
  rw [u1, KD]
  generalize K ^ 3 * D = P at *
  generalize K * D = R at *
  linarith only [m1, m2, hD]

/-- one of the three tests -/
theorem Spec.Scene.test {n p v w : Point3D F64} {q : Point3D ℝ}
    (hn : NearV n ((areaVec v1 v2 v3).smul (1 / len (areaVec v1 v2 v3))) 1 (K / 2 ^ 45))
    (hp : NearV p q (2 ^ 14 * D + 3 * K * D) (K ^ 3 * D / 2 ^ 36)) (hv : v.Num) (hw : w.Num)
    (hfar : ∀ d, |toR (at3 v d)| ≤ 2 ^ 14 * D) (hedge : ∀ d, |toR (at3 w d) - toR (at3 v d)| ≤ E)
    (hq : ∀ d, |at3 q d - toR (at3 v d)| ≤ 5 * K * D) :
    F64.Num (n.dot ((w.sub v).cross (p.sub v))) ∧
    |toR (n.dot ((w.sub v).cross (p.sub v))) -
      ((areaVec v1 v2 v3).smul (1 / len (areaVec v1 v2 v3))).dot ((w.real.sub v.real).cross (q.sub v.real))| ≤ K ^ 3 * D * E / 2 ^ 28 := by
  have hE := S.E0; have hD := S.D0; have hK := S.one
  have hs := S.small; have hl := S.large; have hc := S.cond; have hDE := S.le
  obtain ⟨m1, m2, m3, m4⟩ := S.pows
  have u1 := uu_53
  have KD : 3 * K * D = 3 * (K * D) := by ring
  have he : NearV (w.sub v) (w.real.sub v.real) E (uu * E) := by
    unfold NearV
    have hb : E ≤ 2 ^ (1023 : ℤ) := S.room (by linarith)
    rw [forall_fin3] at hedge ⊢
    exact ⟨.sub_exact hw.1 hv.1 hedge.1 hb, .sub_exact hw.2.1 hv.2.1 hedge.2.1 hb, .sub_exact hw.2.2 hv.2.2 hedge.2.2 hb⟩
  have hpv : NearV (p.sub v) (q.sub v.real) (5 * K * D) (K ^ 3 * D / 2 ^ 35) := by
    intro d
    have nv : F64.Num (at3 v d) := by revert d; rw [forall_fin3]; exact hv
    have h1 := (hp d).sub (Near.self nv (hfar d)) (S.room (by
      rw [KD]
      generalize K ^ 3 * D = P at *
      generalize K * D = R at *
      linarith only [m2, m4, hD]))
    have e1 : at3 (p.sub v) d = at3 p d - at3 v d := by
      clear h1; revert d; rw [forall_fin3]; exact ⟨fun _ => rfl, fun _ => rfl, fun _ => rfl⟩
    have e2 : at3 (q.sub v.real) d = at3 q d - toR (at3 v d) := by
      clear h1 e1; revert d; rw [forall_fin3]; exact ⟨fun _ => rfl, fun _ => rfl, fun _ => rfl⟩
    rw [e1, e2]
    refine ⟨h1.num, hq d, h1.err.trans ?_⟩
    rw [u1, KD]
    generalize K ^ 3 * D = P at *
    generalize K * D = R at *
    linarith only [m1, m2, hD]
  have KE : E * (5 * K * D) = 5 * (K * D * E) := by ring
  have lo : (2:ℝ) ^ (-1000 : ℤ) ≤ K * D * E := by
    have h1 : (2:ℝ) ^ (-1000 : ℤ) ≤ 2 ^ (-100 : ℤ) * 2 ^ (-100 : ℤ) := by
      rw [← zpow_add₀ two_ne_zero]; exact zpow_le_zpow_right₀ one_le_two (by norm_num)
    have h2 : (2:ℝ) ^ (-100 : ℤ) * 2 ^ (-100 : ℤ) ≤ D * E := mul_le_mul (hs.trans hDE) hs (zpow_pos two_pos _).le hD.le
    have h3 : D * E ≤ K * D * E := by
      have := mul_le_mul_of_nonneg_right hK (mul_nonneg hD.le hE.le)
      linarith
    exact h1.trans (h2.trans h3)
  have hi : K * D * E * 2 ^ 100 ≤ 2 ^ (1000 : ℤ) := by
    have h1 : K * D * E ≤ 2 ^ 10 * 2 ^ (100 : ℤ) * 2 ^ (100 : ℤ) :=
      mul_le_mul (mul_le_mul hc hl hD.le (by positivity)) (hDE.trans hl) hE.le (by positivity)
    refine (mul_le_mul_of_nonneg_right h1 (by positivity)).trans ?_
    rw [← zpow_natCast, ← zpow_natCast, ← zpow_add₀ two_ne_zero, ← zpow_add₀ two_ne_zero, ← zpow_add₀ two_ne_zero]
    exact zpow_le_zpow_right₀ one_le_two (by norm_num)
  have hKDE : 0 < K * D * E := mul_pos (mul_pos (by linarith) hD) hE
  have big : (1000:ℝ) ≤ 2 ^ 100 := le_trans (by norm_num : (1000:ℝ) ≤ 2 ^ 10) (pow_le_pow_right₀ one_le_two (by norm_num))
  have hi' : 1000 * (K * D * E) ≤ 2 ^ (1000 : ℤ) := by
    have h1 := mul_le_mul_of_nonneg_left big hKDE.le
    calc 1000 * (K * D * E) = K * D * E * 1000 := by ring
      _ ≤ _ := h1
      _ ≤ _ := hi
  have hcr := he.cross hpv (by nlinarith [uu_le]) (by
      have : 5 * K * D = 5 * (K * D) := by ring
      rw [this]
      generalize K ^ 3 * D = P at *
      have := mul_pos (show (0:ℝ) < K by linarith) hD
      generalize K * D = R at *
      linarith only [m3, this]) (by
      rw [KE]
      generalize (2:ℝ) ^ (-1000 : ℤ) = T at *
      linarith only [lo, hKDE]) (by
      rw [KE]
      generalize (2:ℝ) ^ (1000 : ℤ) = T at *
      linarith only [hi', hKDE])
  have P1 : K * D * E ≤ K ^ 3 * D * E := mul_le_mul_of_nonneg_right m2 hE.le
  have P2 : K ^ 3 * D * E ≤ 2 ^ 20 * (K * D * E) := by
    have := mul_le_mul_of_nonneg_right m3 hE.le
    linarith only [this]
  have P3 : K * (K * D * E) ≤ K ^ 3 * D * E := by
    have h2 := mul_le_mul_of_nonneg_right (S.K3).2.2.1 (mul_nonneg hD.le hE.le)
    linarith only [h2]
  have hcr' : NearV ((w.sub v).cross (p.sub v)) ((w.real.sub v.real).cross (q.sub v.real)) (10 * (K * D * E)) (K ^ 3 * D * E / 2 ^ 32) := by
    intro d
    refine (hcr d).mono (by linarith) ?_
    rw [u1]
    have e1 : 6 * E * (K ^ 3 * D / 2 ^ 35) + 3 * (5 * K * D) * (1 / 2 ^ 53 * E) + 32 * (1 / 2 ^ 53) * (E * (5 * K * D)) =
        6 / 2 ^ 35 * (K ^ 3 * D * E) + 175 / 2 ^ 53 * (K * D * E) := by ring
    rw [e1]
    generalize K ^ 3 * D * E = P at *
    generalize K * D * E = R at *
    linarith only [P1, hKDE]
  have hn1 : K / 2 ^ 45 ≤ 1 := by norm_num at hc ⊢; linarith only [hc]
  have hdot := hn.dot hcr' hn1 (by
      generalize K ^ 3 * D * E = P at *
      generalize K * D * E = R at *
      linarith only [P2, hKDE]) (by
      generalize (2:ℝ) ^ (-1000 : ℤ) = T at *
      linarith only [lo, hKDE]) (by
      generalize (2:ℝ) ^ (1000 : ℤ) = T at *
      linarith only [hi', hKDE])
  refine ⟨hdot.num, hdot.err.trans ?_⟩
  rw [u1]
  have e2 : 8 * 1 * (K ^ 3 * D * E / 2 ^ 32) + 4 * (10 * (K * D * E)) * (K / 2 ^ 45) + 64 * (1 / 2 ^ 53) * (1 * (10 * (K * D * E))) =
      8 / 2 ^ 32 * (K ^ 3 * D * E) + 40 / 2 ^ 45 * (K * (K * D * E)) + 640 / 2 ^ 53 * (K * D * E) := by ring
  rw [e2]
  generalize K * (K * D * E) = Q at *
  generalize K ^ 3 * D * E = P at *
  generalize K * D * E = R at *
  linarith only [P1, P3, hKDE]


omit S in
/-- the value of a test in exact arithmetic: the area times a barycentric coordinate -/
theorem area_coord {N : Point3D ℝ} {L c : ℝ} (hL : 0 < L) (hN : L ^ 2 = N.x ^ 2 + N.y ^ 2 + N.z ^ 2) {m : Point3D ℝ}
    (hm : m = N.smul c) : (N.smul (1 / L)).dot m = L * c := by
  subst hm
  simp only [Point3D.smul, Point3D.dot]
  field_simp
  rw [hN]; ring

theorem Spec.Scene.margin {μ : ℝ} (hμ : K ^ 4 * D < 2 ^ 28 * μ * E) : K ^ 3 * D * E / 2 ^ 28 < len (areaVec v1 v2 v3) * μ := by
  have hE := S.E0; have hD := S.D0; have hK := S.one; have hth := S.thin
  have hL := S.len_pos
  have K0 : 0 < K := by linarith
  have m0 : 0 < μ := by
    have h1 : 0 < K ^ 4 * D := by positivity
    have h2 : 0 < μ * (2 ^ 28 * E) := by nlinarith
    exact (mul_pos_iff_of_pos_right (by positivity)).1 h2
  generalize len (areaVec v1 v2 v3) = L at *
  have h1 := mul_lt_mul_of_pos_right hμ hE
  have h2 := mul_le_mul_of_nonneg_left hth m0.le
  have h3 : K * (K ^ 3 * D * E / 2 ^ 28) < K * (L * μ) := by
    have e1 : K * (K ^ 3 * D * E / 2 ^ 28) = K ^ 4 * D * E / 2 ^ 28 := by ring
    rw [e1, div_lt_iff₀ (by positivity)]
    nlinarith only [h1, h2]
  exact lt_of_mul_lt_mul_left h3 K0.le

/-- C105: no panic; a reported point is next to the exact one, in front of the anchor and within the triangle up to the
margins `K³D/2^38` and `μ > K⁴D/(2^28 E)`; a hit that keeps the margins is reported -/
theorem c105_ray_triangle {t l1 l2 l3 μ : ℝ} (hm : Meets anchor dir v1 v2 v3 t l1 l2 l3) (hμ : K ^ 4 * D < 2 ^ 28 * μ * E) :
    ∃ r, intersectionRayTriangle anchor dir v1 v2 v3 = some r ∧
      (∀ p, r = some p → (p.Num ∧ ∀ d, |toR (at3 p d) - (toR (at3 anchor d) + t * toR (at3 dir d))| ≤ K ^ 3 * D / 2 ^ 36) ∧
        -(K ^ 3 * D / 2 ^ 38) < t ∧ -μ < l1 ∧ -μ < l2 ∧ -μ < l3) ∧
      (K ^ 3 * D / 2 ^ 38 < t → μ ≤ l1 → μ ≤ l2 → μ ≤ l3 → ∃ p, r = some p) := by
  have hE := S.E0; have hD := S.D0; have hK := S.one; have hDE := S.le
  obtain ⟨na, nd, n1, n2, n3⟩ := S.num
  obtain ⟨n, hn1, hn⟩ := S.normal
  obtain ⟨hb, hr⟩ := S.param hn hm
  have hL := S.len_pos
  have hmar := S.margin hμ
  let q : Point3D ℝ := anchor.real.add (dir.real.smul t)
  have hp : NearV (anchor.add (dir.smul (-(n.dot (anchor.sub v1)) / n.dot dir))) q (2 ^ 14 * D + 3 * K * D) (K ^ 3 * D / 2 ^ 36) := by
    intro d
    have := S.point hr d
    have e : at3 q d = toR (at3 anchor d) + t * toR (at3 dir d) := by
      clear this; revert d; rw [forall_fin3]; exact ⟨rfl, rfl, rfl⟩
    rw [e]; exact this
  have hqv : ∀ v : Point3D F64, (∀ d, |toR (at3 v1 d) - toR (at3 v d)| ≤ E) → ∀ d, |at3 q d - toR (at3 v d)| ≤ 5 * K * D := by
    intro v hv d
    have e : at3 q d - toR (at3 v d) = (toR (at3 anchor d) - toR (at3 v1 d)) + t * toR (at3 dir d) + (toR (at3 v1 d) - toR (at3 v d)) := by
      have : at3 q d = toR (at3 anchor d) + t * toR (at3 dir d) := by
        clear hv; revert d; rw [forall_fin3]; exact ⟨rfl, rfl, rfl⟩
      rw [this]; ring
    rw [e]
    have h1 := abs_add_le ((toR (at3 anchor d) - toR (at3 v1 d)) + t * toR (at3 dir d)) (toR (at3 v1 d) - toR (at3 v d))
    have h2 := abs_add_le (toR (at3 anchor d) - toR (at3 v1 d)) (t * toR (at3 dir d))
    have h3 : |t * toR (at3 dir d)| ≤ 3 * K * D := by
      rw [abs_mul]
      have := mul_le_mul hr.le (S.dir1 d) (abs_nonneg _) ((abs_nonneg _).trans hr.le)
      linarith
    have h4 := S.dist d
    have h5 := hv d
    have h6 : D ≤ K * D := by nlinarith
    linarith only [h1, h2, h3, h4, h5, h6, hDE]
  have z0 : ∀ d, |toR (at3 v1 d) - toR (at3 v1 d)| ≤ E := fun d => by simpa using hE.le
  have t1 := S.test hn hp n1 n2 (fun d => (S.far d).2.1) (fun d => (S.edge d).1) (hqv v1 z0)
  have t2 := S.test hn hp n2 n3 (fun d => (S.far d).2.2.1) (fun d => (S.edge d).2.1) (hqv v2 (fun d => by
    rw [abs_sub_comm]; exact (S.edge d).1))
  have t3 := S.test hn hp n3 n1 (fun d => (S.far d).2.2.2) (fun d => (S.edge d).2.2) (hqv v3 (fun d => (S.edge d).2.2))
  have hsq : len (areaVec v1 v2 v3) ^ 2 = (areaVec v1 v2 v3).x ^ 2 + (areaVec v1 v2 v3).y ^ 2 + (areaVec v1 v2 v3).z ^ 2 :=
    Real.sq_sqrt (by positivity)
  obtain ⟨g1, g2⟩ := hm
  rw [forall_fin3] at g2
  simp only [at3_zero, at3_one, at3_two] at g2
  obtain ⟨gx, gy, gz⟩ := g2
  have s1 : l1 = 1 - l2 - l3 := by linarith
  rw [area_coord hL hsq (c := l3)] at t1
  rw [area_coord hL hsq (c := l1)] at t2
  rw [area_coord hL hsq (c := l2)] at t3
  rotate_left
  all_goals try (
    subst s1
    simp only [q, Point3D.real, Point3D.sub, Point3D.add, Point3D.smul, Point3D.cross, areaVec, Point3D.mk.injEq, gx, gy, gz]
    refine ⟨?_, ?_, ?_⟩ <;> ring)
  have key : ∀ {a : F64} {l : ℝ}, F64.Num a ∧ |toR a - len (areaVec v1 v2 v3) * l| ≤ K ^ 3 * D * E / 2 ^ 28 →
      ((a <=. (zero : F64)) = false → -μ < l) ∧ (μ ≤ l → (a <=. (zero : F64)) = false) := by
    intro a l ⟨ha, h⟩
    have hz := num_le ha num_zero
    rw [toR_zero] at hz
    rw [← Bool.not_eq_true, hz, not_le]
    have h1 := abs_le.1 h
    constructor
    · intro h2
      by_contra hc
      have := mul_le_mul_of_nonneg_left (not_lt.1 hc) hL.le
      linarith
    · intro h2
      have := mul_le_mul_of_nonneg_left h2 hL.le
      linarith
  have hrz : ((-(n.dot (anchor.sub v1)) / n.dot dir <=. (zero : F64)) = false → -(K ^ 3 * D / 2 ^ 38) < t) ∧
      (K ^ 3 * D / 2 ^ 38 < t → (-(n.dot (anchor.sub v1)) / n.dot dir <=. (zero : F64)) = false) := by
    have hz := num_le hr.num num_zero
    rw [toR_zero] at hz
    rw [← Bool.not_eq_true, hz, not_le]
    have h1 := abs_le.1 hr.err
    exact ⟨fun h2 => by linarith, fun h2 => by linarith⟩
  have k1 := key t1
  have k2 := key t2
  have k3 := key t3
  have hpn : (anchor.add (dir.smul (-(n.dot (anchor.sub v1)) / n.dot dir))).Num := ⟨(hp 0).num, (hp 1).num, (hp 2).num⟩
  have hpe : ∀ d, |toR (at3 (anchor.add (dir.smul (-(n.dot (anchor.sub v1)) / n.dot dir))) d) - (toR (at3 anchor d) + t * toR (at3 dir d))| ≤
      K ^ 3 * D / 2 ^ 36 := fun d => (S.point hr d).err
  unfold intersectionRayTriangle
  simp only [hn1, Option.bind_eq_bind, Option.bind_some, hb, Option.pure_def, Bool.false_eq_true, if_false]
  refine ⟨_, rfl, ?_, ?_⟩
  · intro p
    split_ifs with c1 c2 c3 c4
    all_goals try (intro h; cases h; done)
    simp only [Bool.not_eq_true] at c1 c2 c3 c4
    intro h
    cases h
    exact ⟨⟨hpn, hpe⟩, hrz.1 c1, k2.1 c3, k3.1 c4, k1.1 c2⟩
  · intro h0 h1 h2 h3
    rw [hrz.2 h0, k1.2 h3, k2.2 h1, k3.2 h2]
    exact ⟨_, rfl⟩

/-- there are such coordinates -/
theorem c105_meets : ∃ t l1 l2 l3, Meets anchor dir v1 v2 v3 t l1 l2 l3 := by
  have hL := S.len_pos
  have hsq : len (areaVec v1 v2 v3) ^ 2 = (areaVec v1 v2 v3).x ^ 2 + (areaVec v1 v2 v3).y ^ 2 + (areaVec v1 v2 v3).z ^ 2 :=
    Real.sq_sqrt (by positivity)
  have hb : (areaVec v1 v2 v3).x * toR dir.x + (areaVec v1 v2 v3).y * toR dir.y + (areaVec v1 v2 v3).z * toR dir.z ≠ 0 := by
    intro h
    have := S.flat
    rw [h, abs_zero, mul_zero] at this
    linarith
  have hM : (areaVec v1 v2 v3).x ^ 2 + (areaVec v1 v2 v3).y ^ 2 + (areaVec v1 v2 v3).z ^ 2 ≠ 0 := by
    rw [← hsq]; positivity
  clear S hL hsq
  unfold Meets
  simp only [forall_fin3, at3_zero, at3_one, at3_two]
  simp only [areaVec] at hb hM
  generalize toR v1.x = x1 at *
  generalize toR v1.y = y1 at *
  generalize toR v1.z = z1 at *
  obtain ⟨b, hbv⟩ : ∃ b, b = toR v2.x - x1 := ⟨_, rfl⟩
  obtain ⟨c, hcv⟩ : ∃ b, b = toR v2.y - y1 := ⟨_, rfl⟩
  obtain ⟨d, hdv⟩ : ∃ b, b = toR v2.z - z1 := ⟨_, rfl⟩
  obtain ⟨e, hev⟩ : ∃ b, b = toR v3.x - x1 := ⟨_, rfl⟩
  obtain ⟨g, hgv⟩ : ∃ b, b = toR v3.y - y1 := ⟨_, rfl⟩
  obtain ⟨h, hhv⟩ : ∃ b, b = toR v3.z - z1 := ⟨_, rfl⟩
  rw [← hbv, ← hcv, ← hdv, ← hev, ← hgv, ← hhv] at hb hM
  obtain ⟨nx, hnx⟩ : ∃ n, n = c * h - d * g := ⟨_, rfl⟩
  obtain ⟨ny, hny⟩ : ∃ n, n = d * e - b * h := ⟨_, rfl⟩
  obtain ⟨nz, hnz⟩ : ∃ n, n = b * g - c * e := ⟨_, rfl⟩
  rw [← hnx, ← hny, ← hnz] at hb hM
  obtain ⟨t, ht⟩ : ∃ t, t = -(nx * (toR anchor.x - x1) + ny * (toR anchor.y - y1) + nz * (toR anchor.z - z1)) /
    (nx * toR dir.x + ny * toR dir.y + nz * toR dir.z) := ⟨_, rfl⟩
  rw [eq_div_iff hb] at ht
  obtain ⟨wx, hwx⟩ : ∃ w, w = toR anchor.x + t * toR dir.x - x1 := ⟨_, rfl⟩
  obtain ⟨wy, hwy⟩ : ∃ w, w = toR anchor.y + t * toR dir.y - y1 := ⟨_, rfl⟩
  obtain ⟨wz, hwz⟩ : ∃ w, w = toR anchor.z + t * toR dir.z - z1 := ⟨_, rfl⟩
  have hw : nx * wx + ny * wy + nz * wz = 0 := by rw [hwx, hwy, hwz]; linarith
  obtain ⟨M, hMv⟩ : ∃ M, M = nx ^ 2 + ny ^ 2 + nz ^ 2 := ⟨_, rfl⟩
  rw [← hMv] at hM
  obtain ⟨l2, hl2⟩ : ∃ l, l = (nx * (wy * h - wz * g) + ny * (wz * e - wx * h) + nz * (wx * g - wy * e)) / M := ⟨_, rfl⟩
  obtain ⟨l3, hl3⟩ : ∃ l, l = (nx * (c * wz - d * wy) + ny * (d * wx - b * wz) + nz * (b * wy - c * wx)) / M := ⟨_, rfl⟩
  rw [eq_div_iff hM] at hl2 hl3
  have e1 : l2 * b + l3 * e = wx := by
    apply mul_right_cancel₀ hM
    have : (l2 * b + l3 * e) * M = l2 * M * b + l3 * M * e := by ring
    rw [this, hl2, hl3]
    have : wx * M = wx * M - nx * (nx * wx + ny * wy + nz * wz) := by rw [hw]; ring
    rw [this, hMv, hnx, hny, hnz]; ring
  have e2 : l2 * c + l3 * g = wy := by
    apply mul_right_cancel₀ hM
    have : (l2 * c + l3 * g) * M = l2 * M * c + l3 * M * g := by ring
    rw [this, hl2, hl3]
    have : wy * M = wy * M - ny * (nx * wx + ny * wy + nz * wz) := by rw [hw]; ring
    rw [this, hMv, hnx, hny, hnz]; ring
  have e3 : l2 * d + l3 * h = wz := by
    apply mul_right_cancel₀ hM
    have : (l2 * d + l3 * h) * M = l2 * M * d + l3 * M * h := by ring
    rw [this, hl2, hl3]
    have : wz * M = wz * M - nz * (nx * wx + ny * wy + nz * wz) := by rw [hw]; ring
    rw [this, hMv, hnx, hny, hnz]; ring
  rw [hwx] at e1; rw [hwy] at e2; rw [hwz] at e3
  refine ⟨t, 1 - l2 - l3, l2, l3, by ring, ?_, ?_, ?_⟩
  · rw [hbv, hev] at e1; linarith
  · rw [hcv, hgv] at e2; linarith
  · rw [hdv, hhv] at e3; linarith

end
/-- the loop over the faces, for any numbers -/
theorem collectRayMeshLoop_any {α : Type} [Scalar α] (anchor dir : Point3D α) (mesh : TMesh (Point3D α)) :
    ∀ (l : List Nat) (os : List (Option (Point3D α))), os.length = l.length →
      (∀ (j : Nat) (i : Nat), l[j]? = some i → ∃ v1 v2 v3 o, mesh.faceVertices i = some (v1, v2, v3) ∧ os[j]? = some o ∧
        intersectionRayTriangle anchor dir v1 v2 v3 = some o) →
      ∀ acc, collectRayMeshLoop anchor dir mesh l acc = some (acc ++ os.filterMap id) := by
  intro l
  induction l with
  | nil => intro os ho _ acc; cases os <;> simp_all [collectRayMeshLoop]
  | cons i rest ih =>
    intro os ho h acc
    obtain _ | ⟨o, os⟩ := os
    · simp at ho
    obtain ⟨v1, v2, v3, o', h1, h2, h3⟩ := h 0 i rfl
    simp only [List.getElem?_cons_zero, Option.some.injEq] at h2
    subst h2
    have ih' := ih os (by simpa using ho) (fun j k hj => h (j + 1) k (by simpa using hj))
    unfold collectRayMeshLoop
    simp only [h1, h3, Option.bind_eq_bind, Option.bind_some]
    cases o with
    | none => simpa using ih' acc
    | some p => simpa using ih' (acc ++ [p])

/-- C105 for meshes: the intersections already present are kept, the ones of the faces follow in face order -/
theorem c105_ray_mesh (anchor dir : Point3D F64) (mesh : TMesh (Point3D F64)) (D E K μ : Nat → ℝ)
    (hm : ∀ i < mesh.faces.length, ∃ v1 v2 v3, mesh.faceVertices i = some (v1, v2, v3) ∧
      Scene anchor dir v1 v2 v3 (D i) (E i) (K i) ∧ K i ^ 4 * D i < 2 ^ 28 * μ i * E i) (acc : List (Point3D F64)) :
    ∃ os : List (Option (Point3D F64)),
      collectIntersectionsRayMesh anchor dir mesh acc = some (acc ++ os.filterMap id) ∧
      os.length = mesh.faces.length ∧
      ∀ i < mesh.faces.length, ∃ v1 v2 v3 t l1 l2 l3, mesh.faceVertices i = some (v1, v2, v3) ∧
        Meets anchor dir v1 v2 v3 t l1 l2 l3 ∧
        (∀ p, os[i]? = some (some p) →
          (p.Num ∧ ∀ d, |toR (at3 p d) - (toR (at3 anchor d) + t * toR (at3 dir d))| ≤ K i ^ 3 * D i / 2 ^ 36) ∧
          -(K i ^ 3 * D i / 2 ^ 38) < t ∧ -μ i < l1 ∧ -μ i < l2 ∧ -μ i < l3) ∧
        (K i ^ 3 * D i / 2 ^ 38 < t → μ i ≤ l1 → μ i ≤ l2 → μ i ≤ l3 → ∃ p, os[i]? = some (some p)) := by
  have h1 : ∀ i, ∃ o, i < mesh.faces.length → ∃ v1 v2 v3, mesh.faceVertices i = some (v1, v2, v3) ∧
      intersectionRayTriangle anchor dir v1 v2 v3 = some o := by
    intro i
    by_cases hi : i < mesh.faces.length
    · obtain ⟨v1, v2, v3, e, S, hμ⟩ := hm i hi
      obtain ⟨t, l1, l2, l3, hM⟩ := c105_meets S
      obtain ⟨r, hr, -⟩ := c105_ray_triangle S hM hμ
      exact ⟨r, fun _ => ⟨v1, v2, v3, e, hr⟩⟩
    · exact ⟨none, fun h => absurd h hi⟩
  choose o ho using h1
  refine ⟨(List.range mesh.numFaces).map o, ?_, by simp [TMesh.numFaces], ?_⟩
  · refine collectRayMeshLoop_any anchor dir mesh _ _ (by simp) ?_ acc
    intro j i hj
    obtain ⟨hj1, hj2⟩ := List.getElem?_eq_some_iff.1 hj
    rw [List.getElem_range] at hj2
    subst hj2
    have hlt : j < mesh.faces.length := by simpa [TMesh.numFaces] using hj1
    obtain ⟨v1, v2, v3, e, h⟩ := ho j hlt
    exact ⟨v1, v2, v3, o j, e, by simp [TMesh.numFaces, hlt], h⟩
  · intro i hi
    obtain ⟨v1, v2, v3, e, S, hμ⟩ := hm i hi
    obtain ⟨t, l1, l2, l3, hM⟩ := c105_meets S
    obtain ⟨r, hr, ha, hb⟩ := c105_ray_triangle S hM hμ
    obtain ⟨w1, w2, w3, e', hr'⟩ := ho i hi
    rw [e] at e'
    cases e'
    rw [hr] at hr'
    cases hr'
    have hg : ((List.range mesh.numFaces).map o)[i]? = some (o i) := by simp [TMesh.numFaces, hi]
    refine ⟨v1, v2, v3, t, l1, l2, l3, e, hM, ?_, ?_⟩
    · intro p hp
      rw [hg, Option.some.injEq] at hp
      exact ha p hp
    · intro a1 a2 a3 a4
      obtain ⟨p, hp⟩ := hb a1 a2 a3 a4
      exact ⟨p, by rw [hg, hp]⟩

/-- without a margin: rounding loses a hit -/
theorem c105_violated_rounding : ∃ (anchor dir v1 v2 v3 : Point3D F64) (t l1 l2 l3 : ℝ),
    anchor = ⟨f 2, f 1, f 0⟩ ∧ dir = ⟨f (3/5), f 0, f (4/5)⟩ ∧
    v1 = ⟨f 0, f (1/3), f (4/3)⟩ ∧ v2 = ⟨f 3, f 1, f (4/3)⟩ ∧ v3 = ⟨f (8/3), f 2, f (5/3)⟩ ∧
    Meets anchor dir v1 v2 v3 t l1 l2 l3 ∧ 0 < t ∧ 0 < l1 ∧ 0 < l2 ∧ 0 < l3 ∧
    intersectionRayTriangle anchor dir v1 v2 v3 = some none := by
  refine ⟨_, _, _, _, _, 550318517760401716864933533441995430377145855646 / 330191110656241064373696339565797047128241521975,
    43269140487790229637274185760768 / 990573331968723193121089018697391141384724565925,
    1981146663937446242011709744760681890575629086447 / 1981146663937446386242178037394782282769449131850,
    57692187317053641117645448523867 / 1981146663937446386242178037394782282769449131850,
    rfl, rfl, rfl, rfl, rfl, ?_, by norm_num, by norm_num, by norm_num, by norm_num, by decide +kernel⟩
  have h0 := (ex_num 0 false 0 (by decide +kernel)).2
  have h1 := (ex_num 1 false 1 (by decide +kernel)).2
  have h2 := (ex_num 2 false 2 (by decide +kernel)).2
  have h3 := (ex_num 3 false 3 (by decide +kernel)).2
  have h4 := (ex_num (3/5) false (5404319552844595 / 9007199254740992) (by decide +kernel)).2
  have h5 := (ex_num (4/5) false (3602879701896397 / 4503599627370496) (by decide +kernel)).2
  have h6 := (ex_num (1/3) false (6004799503160661 / 18014398509481984) (by decide +kernel)).2
  have h7 := (ex_num (4/3) false (6004799503160661 / 4503599627370496) (by decide +kernel)).2
  have h8 := (ex_num (8/3) false (6004799503160661 / 2251799813685248) (by decide +kernel)).2
  have h9 := (ex_num (5/3) false (7505999378950827 / 4503599627370496) (by decide +kernel)).2
  simp only [Meets, forall_fin3, at3_zero, at3_one, at3_two, h0, h1, h2, h3, h4, h5, h6, h7, h8, h9, val]
  norm_num

/-- a scene: a ray onto the triangle `(0,0,0) (1,0,0) (0,1,0)` -/
example : Scene ⟨f (1/4), f (1/4), f 1⟩ ⟨f 0, f 0, F64.neg (f 1)⟩ ⟨f 0, f 0, f 0⟩ ⟨f 1, f 0, f 0⟩ ⟨f 0, f 1, f 0⟩ 1 1 1 ∧
    Meets ⟨f (1/4), f (1/4), f 1⟩ ⟨f 0, f 0, F64.neg (f 1)⟩ ⟨f 0, f 0, f 0⟩ ⟨f 1, f 0, f 0⟩ ⟨f 0, f 1, f 0⟩ 1 (1/2) (1/4) (1/4) ∧
    (1:ℝ) ^ 4 * 1 < 2 ^ 28 * (1 / 2 ^ 27) * 1 := by
  have h0 := ex_num 0 false 0 (by decide +kernel)
  have h1 := ex_num 1 false 1 (by decide +kernel)
  have h2 := ex_num (1/4) false (1/4) (by decide +kernel)
  have h3 : (F64.neg (f 1)).Num := h1.1.neg
  have h4 : toR (F64.neg (f 1)) = - toR (f 1) := toR_neg h1.1
  have hl : len (areaVec ⟨f 0, f 0, f 0⟩ ⟨f 1, f 0, f 0⟩ ⟨f 0, f 1, f 0⟩) = 1 := by
    simp [len, areaVec, h0.2, h1.2, val]
  refine ⟨⟨?_, ?_, ?_, ?_, ?_, le_rfl, ?_, ?_, le_rfl, by norm_num, ?_, ?_⟩, ?_, by norm_num⟩
  · simp only [Point3D.Num, h0.1, h1.1, h2.1, h3, and_self]
  · simp only [forall_fin3, at3_zero, at3_one, at3_two, h0.2, h1.2, h2.2, h4, val]; norm_num [abs_le]
  · simp only [forall_fin3, at3_zero, at3_one, at3_two, h0.2, h1.2, h2.2, h4, val]; norm_num [abs_le]
  · simp only [forall_fin3, at3_zero, at3_one, at3_two, h0.2, h1.2, h2.2, h4, val]; norm_num [abs_le]
  · simp only [forall_fin3, at3_zero, at3_one, at3_two, h0.2, h1.2, h2.2, h4, val]; norm_num [abs_le]
  · rw [zpow_neg]; exact inv_le_one_of_one_le₀ (one_le_zpow₀ one_le_two (by norm_num))
  · exact one_le_zpow₀ one_le_two (by norm_num)
  · rw [hl, one_mul]
  · rw [hl]; simp only [areaVec, h0.2, h1.2, h4, val]; norm_num
  · simp only [Meets, forall_fin3, at3_zero, at3_one, at3_two, h0.2, h1.2, h2.2, h4, val]; norm_num
end R3D
