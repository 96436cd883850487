import Verif.Model.Intersect
import Verif.Props.Matrix
import Verif.Spec.Geom
/-!
C46: ray against triangle.
-/
namespace R3D
open Scalar Spec

/-! ### specification: rays, triangles and planes through their parametrisations -/

/-- `p` is reached from the anchor after a positive amount of the direction -/
def Spec.OnOpenRay (anchor dir p : Point3D ℝ) : Prop :=
  ∃ t : ℝ, 0 < t ∧ ∀ d, at3 p d = at3 anchor d + t * at3 dir d

/-- `p` is a strictly convex combination of the corners -/
def Spec.InTriangleInterior (v1 v2 v3 p : Point3D ℝ) : Prop :=
  ∃ a b c : ℝ, 0 < a ∧ 0 < b ∧ 0 < c ∧ a + b + c = 1 ∧
    ∀ d, at3 p d = a * at3 v1 d + b * at3 v2 d + c * at3 v3 d

/-- `p` is an affine combination of the corners -/
def Spec.InTrianglePlane (v1 v2 v3 p : Point3D ℝ) : Prop :=
  ∃ a b c : ℝ, a + b + c = 1 ∧ ∀ d, at3 p d = a * at3 v1 d + b * at3 v2 d + c * at3 v3 d

/-- the edges at the first corner are linearly independent -/
def Spec.NonDegenerate (v1 v2 v3 : Point3D ℝ) : Prop :=
  ∀ s t : ℝ, (∀ d, s * (at3 v2 d - at3 v1 d) + t * (at3 v3 d - at3 v1 d) = 0) → s = 0 ∧ t = 0

/-- the direction is a combination of the edges -/
def Spec.ParallelToPlane (dir v1 v2 v3 : Point3D ℝ) : Prop :=
  ∃ s t : ℝ, ∀ d, at3 dir d = s * (at3 v2 d - at3 v1 d) + t * (at3 v3 d - at3 v1 d)

/-- the ray hits the interior of the triangle in exactly the point `p` -/
def Spec.RayHits (anchor dir v1 v2 v3 p : Point3D ℝ) : Prop :=
  OnOpenRay anchor dir p ∧ InTriangleInterior v1 v2 v3 p ∧ ¬ParallelToPlane dir v1 v2 v3

/-! ### normalisation -/

theorem Spec.len_pos {p : Point3D ℝ} (h : p ≠ ⟨0, 0, 0⟩) : 0 < Spec.len p :=
  lt_of_le_of_ne (Real.sqrt_nonneg _) (fun e => h ((Spec.len_eq_zero p).1 e.symm))

theorem Norm3D.new_real (p : Point3D ℝ) : Norm3D.new p =
    if p = ⟨0, 0, 0⟩ then some (.error .NormalizeVecWithoutLength)
    else some (.ok ⟨1 / Spec.len p * p.x, 1 / Spec.len p * p.y, 1 / Spec.len p * p.z⟩) := by
  unfold Norm3D.new
  rw [Point3D.abs_real]
  by_cases h : p = ⟨0, 0, 0⟩
  · have h' : Real.sqrt (p.x ^ 2 + p.y ^ 2 + p.z ^ 2) = 0 := (Spec.len_eq_zero p).2 h
    simp [h', h]
  · have h' : Real.sqrt (p.x ^ 2 + p.y ^ 2 + p.z ^ 2) ≠ 0 := fun e => h ((Spec.len_eq_zero p).1 e)
    simp [h', h, Spec.len]

theorem Norm3D.newOrZ_real (p : Point3D ℝ) : Norm3D.newOrZ p =
    if p = ⟨0, 0, 0⟩ then some ⟨0, 0, 1⟩
    else some ⟨1 / Spec.len p * p.x, 1 / Spec.len p * p.y, 1 / Spec.len p * p.z⟩ := by
  unfold Norm3D.newOrZ
  rw [Norm3D.new_real]
  by_cases h : p = ⟨0, 0, 0⟩
  · simp [h, Norm3D.normZ]
  · simp [h]

/-- `norm_x()`, `norm_y()`, `norm_z()` are what `new` gives, in both arithmetics -/
example : Norm3D.new (⟨lit 1, lit 0, lit 0⟩ : Point3D F64) = some (.ok Norm3D.normX) ∧
    Norm3D.new (⟨lit 0, lit 1, lit 0⟩ : Point3D F64) = some (.ok Norm3D.normY) ∧
    Norm3D.new (⟨lit 0, lit 0, lit 1⟩ : Point3D F64) = some (.ok Norm3D.normZ) := by
  decide +kernel
example : Norm3D.new (⟨lit 1, lit 0, lit 0⟩ : Point3D ℝ) = some (.ok Norm3D.normX) ∧
    Norm3D.new (⟨lit 0, lit 1, lit 0⟩ : Point3D ℝ) = some (.ok Norm3D.normY) ∧
    Norm3D.new (⟨lit 0, lit 0, lit 1⟩ : Point3D ℝ) = some (.ok Norm3D.normZ) := by
  simp [Norm3D.new_real, Spec.len, Norm3D.normX, Norm3D.normY, Norm3D.normZ]

/-! ### barycentric coordinates -/

section
variable (ex ey ez gx gy gz wx wy wz : ℝ)

/-- components of `e × g` -/
local notation "NX" => ey * gz - ez * gy
local notation "NY" => ez * gx - ex * gz
local notation "NZ" => ex * gy - ey * gx

theorem bary_identity :
    ((NX) ^ 2 + (NY) ^ 2 + (NZ) ^ 2) * wx =
      ((NX) * (wy * gz - wz * gy) + (NY) * (wz * gx - wx * gz) + (NZ) * (wx * gy - wy * gx)) * ex +
      ((NX) * (ey * wz - ez * wy) + (NY) * (ez * wx - ex * wz) + (NZ) * (ex * wy - ey * wx)) * gx +
      ((NX) * wx + (NY) * wy + (NZ) * wz) * (NX) ∧
    ((NX) ^ 2 + (NY) ^ 2 + (NZ) ^ 2) * wy =
      ((NX) * (wy * gz - wz * gy) + (NY) * (wz * gx - wx * gz) + (NZ) * (wx * gy - wy * gx)) * ey +
      ((NX) * (ey * wz - ez * wy) + (NY) * (ez * wx - ex * wz) + (NZ) * (ex * wy - ey * wx)) * gy +
      ((NX) * wx + (NY) * wy + (NZ) * wz) * (NY) ∧
    ((NX) ^ 2 + (NY) ^ 2 + (NZ) ^ 2) * wz =
      ((NX) * (wy * gz - wz * gy) + (NY) * (wz * gx - wx * gz) + (NZ) * (wx * gy - wy * gx)) * ez +
      ((NX) * (ey * wz - ez * wy) + (NY) * (ez * wx - ex * wz) + (NZ) * (ex * wy - ey * wx)) * gz +
      ((NX) * wx + (NY) * wy + (NZ) * wz) * (NZ) := by
  refine ⟨?_, ?_, ?_⟩ <;> ring

theorem cross_ne_of_indep
    (h : ∀ s t : ℝ, s * ex + t * gx = 0 → s * ey + t * gy = 0 → s * ez + t * gz = 0 → s = 0 ∧ t = 0) :
    0 < (NX) ^ 2 + (NY) ^ 2 + (NZ) ^ 2 := by
  by_contra hc
  have hs : (NX) ^ 2 + (NY) ^ 2 + (NZ) ^ 2 = 0 := le_antisymm (not_lt.1 hc) (by positivity)
  have hx : NX = 0 := by nlinarith [sq_nonneg (NX), sq_nonneg (NY), sq_nonneg (NZ)]
  have hy : NY = 0 := by nlinarith [sq_nonneg (NX), sq_nonneg (NY), sq_nonneg (NZ)]
  have hz : NZ = 0 := by nlinarith [sq_nonneg (NX), sq_nonneg (NY), sq_nonneg (NZ)]
  have h1 := h (ex * gx + ey * gy + ez * gz) (-(ex ^ 2 + ey ^ 2 + ez ^ 2))
    (by linear_combination ey * hz - ez * hy) (by linear_combination ez * hx - ex * hz)
    (by linear_combination ex * hy - ey * hx)
  have h2 : ex ^ 2 + ey ^ 2 + ez ^ 2 = 0 := by linarith [h1.2]
  have e1 : ex = 0 := by nlinarith [sq_nonneg ex, sq_nonneg ey, sq_nonneg ez]
  have e2 : ey = 0 := by nlinarith [sq_nonneg ex, sq_nonneg ey, sq_nonneg ez]
  have e3 : ez = 0 := by nlinarith [sq_nonneg ex, sq_nonneg ey, sq_nonneg ez]
  have := h 1 0 (by simp [e1]) (by simp [e2]) (by simp [e3])
  exact one_ne_zero this.1
end

theorem normalOfFace_real (v1 v2 v3 : Point3D ℝ) (h : NonDegenerate v1 v2 v3) :
    ∃ k : ℝ, 0 < k ∧ normalOfFace v1 v2 v3 =
      some (((conn v1 v2).cross (conn v1 v3)).smul k) ∧
      0 < ((conn v1 v2).cross (conn v1 v3)).x ^ 2 + ((conn v1 v2).cross (conn v1 v3)).y ^ 2 +
        ((conn v1 v2).cross (conn v1 v3)).z ^ 2 := by
  have hN := cross_ne_of_indep (v2.x - v1.x) (v2.y - v1.y) (v2.z - v1.z) (v3.x - v1.x) (v3.y - v1.y)
    (v3.z - v1.z) (fun s t h1 h2 h3 => h s t (by
      rw [forall_fin3]; exact ⟨h1, h2, h3⟩))
  have hc : (conn v1 v2).cross (conn v2 v3) = (conn v1 v2).cross (conn v1 v3) := by
    simp only [conn, Point3D.cross, Point3D.mk.injEq]
    refine ⟨?_, ?_, ?_⟩ <;> ring
  have hne : (conn v1 v2).cross (conn v1 v3) ≠ ⟨0, 0, 0⟩ := by
    intro e
    simp only [conn, Point3D.cross, Point3D.mk.injEq] at e
    rw [e.1, e.2.1, e.2.2] at hN
    simp at hN
  refine ⟨1 / Spec.len ((conn v1 v2).cross (conn v1 v3)), one_div_pos.2 (Spec.len_pos hne), ?_, hN⟩
  rw [normalOfFace, hc, Norm3D.newOrZ_real, if_neg hne]
  rfl

/-- C46, exact arithmetic: on every non degenerate triangle the function never panics and returns `p`
exactly when the ray (without its anchor) hits the interior of the triangle in `p` alone; the returned
point is the only common point of the ray and the plane of the triangle. -/
theorem c46_ray_triangle (anchor dir v1 v2 v3 : Point3D ℝ) (h : NonDegenerate v1 v2 v3) :
    ∃ r, intersectionRayTriangle anchor dir v1 v2 v3 = some r ∧
      (∀ p, r = some p ↔ RayHits anchor dir v1 v2 v3 p) ∧
      (∀ p, r = some p → ∀ q, OnOpenRay anchor dir q → InTrianglePlane v1 v2 v3 q → q = p) := by
  obtain ⟨k, hk, hn, hN⟩ := normalOfFace_real v1 v2 v3 h
  obtain ⟨ax, ay, az⟩ := anchor
  obtain ⟨dx, dy, dz⟩ := dir
  obtain ⟨x1, y1, z1⟩ := v1
  obtain ⟨x2, y2, z2⟩ := v2
  obtain ⟨x3, y3, z3⟩ := v3
  simp only [conn, Point3D.cross] at hN hn
  -- edges
  obtain ⟨ex, hex⟩ : ∃ ex, ex = x2 - x1 := ⟨_, rfl⟩
  obtain ⟨ey, hey⟩ : ∃ ey, ey = y2 - y1 := ⟨_, rfl⟩
  obtain ⟨ez, hez⟩ : ∃ ez, ez = z2 - z1 := ⟨_, rfl⟩
  obtain ⟨gx, hgx⟩ : ∃ gx, gx = x3 - x1 := ⟨_, rfl⟩
  obtain ⟨gy, hgy⟩ : ∃ gy, gy = y3 - y1 := ⟨_, rfl⟩
  obtain ⟨gz, hgz⟩ : ∃ gz, gz = z3 - z1 := ⟨_, rfl⟩
  obtain rfl : x2 = x1 + ex := by linarith
  obtain rfl : y2 = y1 + ey := by linarith
  obtain rfl : z2 = z1 + ez := by linarith
  obtain rfl : x3 = x1 + gx := by linarith
  obtain rfl : y3 = y1 + gy := by linarith
  obtain rfl : z3 = z1 + gz := by linarith
  clear hex hey hez hgx hgy hgz h
  simp only [add_sub_cancel_left, Point3D.smul] at hN hn
  obtain ⟨nx, hnx⟩ : ∃ nx, nx = ey * gz - ez * gy := ⟨_, rfl⟩
  obtain ⟨ny, hny⟩ : ∃ ny, ny = ez * gx - ex * gz := ⟨_, rfl⟩
  obtain ⟨nz, hnz⟩ : ∃ nz, nz = ex * gy - ey * gx := ⟨_, rfl⟩
  rw [← hnx, ← hny, ← hnz] at hN hn
  have hpar : ParallelToPlane ⟨dx, dy, dz⟩ ⟨x1, y1, z1⟩ ⟨x1 + ex, y1 + ey, z1 + ez⟩ ⟨x1 + gx, y1 + gy, z1 + gz⟩ ↔
      nx * dx + ny * dy + nz * dz = 0 := by
    constructor
    · rintro ⟨s, t, hd⟩
      rw [forall_fin3] at hd
      simp only [at3_zero, at3_one, at3_two, add_sub_cancel_left] at hd
      obtain ⟨rfl, rfl, rfl⟩ := hd
      rw [hnx, hny, hnz]
      ring
    · intro h0
      obtain ⟨i1, i2, i3⟩ := bary_identity ex ey ez gx gy gz dx dy dz
      rw [← hnx, ← hny, ← hnz] at i1 i2 i3
      rw [h0] at i1 i2 i3
      refine ⟨(nx * (dy * gz - dz * gy) + ny * (dz * gx - dx * gz) + nz * (dx * gy - dy * gx)) / (nx ^ 2 + ny ^ 2 + nz ^ 2),
        (nx * (ey * dz - ez * dy) + ny * (ez * dx - ex * dz) + nz * (ex * dy - ey * dx)) / (nx ^ 2 + ny ^ 2 + nz ^ 2), ?_⟩
      rw [forall_fin3]
      simp only [at3_zero, at3_one, at3_two, add_sub_cancel_left]
      refine ⟨?_, ?_, ?_⟩ <;> field_simp <;> linarith
  -- the plane equation
  have hplane : ∀ q, InTrianglePlane ⟨x1, y1, z1⟩ ⟨x1 + ex, y1 + ey, z1 + ez⟩ ⟨x1 + gx, y1 + gy, z1 + gz⟩ q →
      nx * (q.x - x1) + ny * (q.y - y1) + nz * (q.z - z1) = 0 := by
    rintro ⟨qx, qy, qz⟩ ⟨a, b, c, habc, hq⟩
    rw [forall_fin3] at hq
    simp only [at3_zero, at3_one, at3_two] at hq ⊢
    obtain rfl : a = 1 - b - c := by linarith
    obtain ⟨rfl, rfl, rfl⟩ := hq
    rw [hnx, hny, hnz]
    ring
  have hkb : (k * nx * dx + k * ny * dy + k * nz * dz = 0) ↔ nx * dx + ny * dy + nz * dz = 0 := by
    have : k * nx * dx + k * ny * dy + k * nz * dz = k * (nx * dx + ny * dy + nz * dz) := by ring
    rw [this, mul_eq_zero, or_iff_right hk.ne']
  have hkle : ∀ u v w : ℝ, (k * nx * u + k * ny * v + k * nz * w ≤ 0) ↔ nx * u + ny * v + nz * w ≤ 0 := by
    intro u v w
    have : k * nx * u + k * ny * v + k * nz * w = k * (nx * u + ny * v + nz * w) := by ring
    rw [this]
    constructor
    · intro h
      by_contra hc
      have := mul_pos hk (not_le.1 hc)
      linarith
    · intro h
      exact mul_nonpos_of_nonneg_of_nonpos hk.le h
  unfold intersectionRayTriangle
  simp only [hn, Option.bind_eq_bind, Option.bind_some, Option.pure_def, Option.some.injEq, exists_eq_left',
    Point3D.dot, Point3D.sub, Point3D.add, Point3D.smul, Point3D.cross, Real.scalar_eq, Real.scalar_le,
    Real.scalar_zero, decide_eq_true_eq, hkb, hkle]
  by_cases hb : nx * dx + ny * dy + nz * dz = 0
  · rw [if_pos hb]
    simp only [reduceCtorEq, false_iff, false_imp_iff, implies_true, and_true, RayHits]
    rintro p ⟨-, -, hnp⟩
    exact hnp (hpar.2 hb)
  rw [if_neg hb]
  obtain ⟨r, hr⟩ : ∃ r, r = -(k * nx * (ax - x1) + k * ny * (ay - y1) + k * nz * (az - z1)) /
      (k * nx * dx + k * ny * dy + k * nz * dz) := ⟨_, rfl⟩
  rw [← hr]
  have hrb : r * (nx * dx + ny * dy + nz * dz) = -(nx * (ax - x1) + ny * (ay - y1) + nz * (az - z1)) := by
    have h2 : k * nx * dx + k * ny * dy + k * nz * dz ≠ 0 := fun e => hb (hkb.1 e)
    rw [eq_div_iff h2] at hr
    have := mul_left_cancel₀ hk.ne' (show k * (r * (nx * dx + ny * dy + nz * dz)) =
      k * (-(nx * (ax - x1) + ny * (ay - y1) + nz * (az - z1))) by linear_combination hr)
    exact this
  clear hr
  -- on the ray and in the plane means parameter `r`
  have hray : ∀ t : ℝ, nx * (ax + t * dx - x1) + ny * (ay + t * dy - y1) + nz * (az + t * dz - z1) = 0 → t = r := by
    intro t ht
    have : (t - r) * (nx * dx + ny * dy + nz * dz) = 0 := by linear_combination ht - hrb
    rcases mul_eq_zero.1 this with h | h
    · linarith
    · exact absurd h hb
  have huniq : ∀ q, OnOpenRay ⟨ax, ay, az⟩ ⟨dx, dy, dz⟩ q → InTrianglePlane ⟨x1, y1, z1⟩ ⟨x1 + ex, y1 + ey, z1 + ez⟩ ⟨x1 + gx, y1 + gy, z1 + gz⟩ q →
      0 < r ∧ q = ⟨ax + r * dx, ay + r * dy, az + r * dz⟩ := by
    rintro q ⟨t, ht, hq⟩ hp
    have h0 := hplane q hp
    obtain ⟨qx, qy, qz⟩ := q
    rw [forall_fin3] at hq
    simp only [at3_zero, at3_one, at3_two] at hq h0
    obtain ⟨rfl, rfl, rfl⟩ := hq
    have := hray t h0
    subst this
    exact ⟨ht, rfl⟩
  by_cases hr0 : r ≤ 0
  · rw [if_pos hr0]
    simp only [reduceCtorEq, false_iff, false_imp_iff, implies_true, and_true, RayHits]
    rintro p ⟨hp, ⟨a, b, c, -, -, -, habc, hi⟩, -⟩
    have := (huniq p hp ⟨a, b, c, habc, hi⟩).1
    linarith
  rw [if_neg hr0]
  obtain ⟨wx, hwx⟩ : ∃ wx, wx = ax + r * dx - x1 := ⟨_, rfl⟩
  obtain ⟨wy, hwy⟩ : ∃ wy, wy = ay + r * dy - y1 := ⟨_, rfl⟩
  obtain ⟨wz, hwz⟩ : ∃ wz, wz = az + r * dz - z1 := ⟨_, rfl⟩
  have px : ax + r * dx = x1 + wx := by linarith
  have py : ay + r * dy = y1 + wy := by linarith
  have pz : az + r * dz = z1 + wz := by linarith
  have hw0 : nx * wx + ny * wy + nz * wz = 0 := by
    rw [hwx, hwy, hwz]
    linear_combination hrb
  simp only [px, py, pz] at huniq ⊢
  obtain ⟨C, hC⟩ : ∃ C, C = nx * (ey * wz - ez * wy) + ny * (ez * wx - ex * wz) + nz * (ex * wy - ey * wx) := ⟨_, rfl⟩
  obtain ⟨B, hB⟩ : ∃ B, B = nx * (wy * gz - wz * gy) + ny * (wz * gx - wx * gz) + nz * (wx * gy - wy * gx) := ⟨_, rfl⟩
  obtain ⟨i1, i2, i3⟩ := bary_identity ex ey ez gx gy gz wx wy wz
  rw [← hnx, ← hny, ← hnz, ← hB, ← hC, hw0, zero_mul, add_zero] at i1 i2 i3
  have c1 : nx * ((y1 + ey - y1) * (z1 + wz - z1) - (z1 + ez - z1) * (y1 + wy - y1)) +
      ny * ((z1 + ez - z1) * (x1 + wx - x1) - (x1 + ex - x1) * (z1 + wz - z1)) +
      nz * ((x1 + ex - x1) * (y1 + wy - y1) - (y1 + ey - y1) * (x1 + wx - x1)) = C := by rw [hC]; ring
  have c2 : nx * ((y1 + gy - (y1 + ey)) * (z1 + wz - (z1 + ez)) - (z1 + gz - (z1 + ez)) * (y1 + wy - (y1 + ey))) +
      ny * ((z1 + gz - (z1 + ez)) * (x1 + wx - (x1 + ex)) - (x1 + gx - (x1 + ex)) * (z1 + wz - (z1 + ez))) +
      nz * ((x1 + gx - (x1 + ex)) * (y1 + wy - (y1 + ey)) - (y1 + gy - (y1 + ey)) * (x1 + wx - (x1 + ex))) =
      nx ^ 2 + ny ^ 2 + nz ^ 2 - B - C := by rw [hB, hC, hnx, hny, hnz]; ring
  have c3 : nx * ((y1 - (y1 + gy)) * (z1 + wz - (z1 + gz)) - (z1 - (z1 + gz)) * (y1 + wy - (y1 + gy))) +
      ny * ((z1 - (z1 + gz)) * (x1 + wx - (x1 + gx)) - (x1 - (x1 + gx)) * (z1 + wz - (z1 + gz))) +
      nz * ((x1 - (x1 + gx)) * (y1 + wy - (y1 + gy)) - (y1 - (y1 + gy)) * (x1 + wx - (x1 + gx))) = B := by rw [hB]; ring
  rw [c1, c2, c3]
  have hfwd : 0 < C → 0 < nx ^ 2 + ny ^ 2 + nz ^ 2 - B - C → 0 < B →
      RayHits ⟨ax, ay, az⟩ ⟨dx, dy, dz⟩ ⟨x1, y1, z1⟩ ⟨x1 + ex, y1 + ey, z1 + ez⟩ ⟨x1 + gx, y1 + gy, z1 + gz⟩
        ⟨x1 + wx, y1 + wy, z1 + wz⟩ := by
    intro h1 h2 h3
    refine ⟨⟨r, not_le.1 hr0, ?_⟩, ⟨(nx ^ 2 + ny ^ 2 + nz ^ 2 - B - C) / (nx ^ 2 + ny ^ 2 + nz ^ 2),
      B / (nx ^ 2 + ny ^ 2 + nz ^ 2), C / (nx ^ 2 + ny ^ 2 + nz ^ 2), div_pos h2 hN, div_pos h3 hN, div_pos h1 hN, ?_, ?_⟩,
      fun e => hb (hpar.1 e)⟩
    · rw [forall_fin3]
      simp only [at3_zero, at3_one, at3_two]
      exact ⟨px.symm, py.symm, pz.symm⟩
    · field_simp; ring
    · rw [forall_fin3]
      simp only [at3_zero, at3_one, at3_two]
      refine ⟨?_, ?_, ?_⟩ <;> field_simp
      · linear_combination i1
      · linear_combination i2
      · linear_combination i3
  have hbwd : ∀ p, RayHits ⟨ax, ay, az⟩ ⟨dx, dy, dz⟩ ⟨x1, y1, z1⟩ ⟨x1 + ex, y1 + ey, z1 + ez⟩ ⟨x1 + gx, y1 + gy, z1 + gz⟩ p →
      p = ⟨x1 + wx, y1 + wy, z1 + wz⟩ ∧ 0 < C ∧ 0 < nx ^ 2 + ny ^ 2 + nz ^ 2 - B - C ∧ 0 < B := by
    rintro p ⟨hp, ⟨a, b, c, ha, hb', hc, habc, hi⟩, -⟩
    have hpe := (huniq p hp ⟨a, b, c, habc, hi⟩).2
    subst hpe
    rw [forall_fin3] at hi
    simp only [at3_zero, at3_one, at3_two] at hi
    obtain rfl : a = 1 - b - c := by linarith
    have w1 : wx = b * ex + c * gx := by linear_combination hi.1
    have w2 : wy = b * ey + c * gy := by linear_combination hi.2.1
    have w3 : wz = b * ez + c * gz := by linear_combination hi.2.2
    have eC : C = c * (nx ^ 2 + ny ^ 2 + nz ^ 2) := by rw [hC, w1, w2, w3, hnx, hny, hnz]; ring
    have eB : B = b * (nx ^ 2 + ny ^ 2 + nz ^ 2) := by rw [hB, w1, w2, w3, hnx, hny, hnz]; ring
    refine ⟨rfl, ?_, ?_, ?_⟩
    · rw [eC]; exact mul_pos hc hN
    · rw [eC, eB]
      have := mul_pos ha hN
      linarith
    · rw [eB]; exact mul_pos hb' hN
  by_cases h1 : C ≤ 0
  · rw [if_pos h1]
    simp only [reduceCtorEq, false_iff, false_imp_iff, implies_true, and_true]
    intro p hp
    have := (hbwd p hp).2.1
    linarith
  rw [if_neg h1]
  by_cases h2 : nx ^ 2 + ny ^ 2 + nz ^ 2 - B - C ≤ 0
  · rw [if_pos h2]
    simp only [reduceCtorEq, false_iff, false_imp_iff, implies_true, and_true]
    intro p hp
    have := (hbwd p hp).2.2.1
    linarith
  rw [if_neg h2]
  by_cases h3 : B ≤ 0
  · rw [if_pos h3]
    simp only [reduceCtorEq, false_iff, false_imp_iff, implies_true, and_true]
    intro p hp
    have := (hbwd p hp).2.2.2
    linarith
  rw [if_neg h3]
  refine ⟨fun p => ⟨fun e => ?_, fun hp => ?_⟩, fun p e q hq hq' => ?_⟩
  · rw [Option.some.injEq] at e
    subst e
    exact hfwd (not_le.1 h1) (not_le.1 h2) (not_le.1 h3)
  · rw [(hbwd p hp).1]
  · rw [Option.some.injEq] at e
    subst e
    exact (huniq q hq hq').2

/-- a triangle and a ray through its interior -/
example : NonDegenerate ⟨0, 0, 1⟩ ⟨4, 0, 1⟩ ⟨0, 4, 1⟩ ∧
    RayHits ⟨1, 1, 0⟩ ⟨0, 0, 1⟩ ⟨0, 0, 1⟩ ⟨4, 0, 1⟩ ⟨0, 4, 1⟩ ⟨1, 1, 1⟩ := by
  refine ⟨?_, ⟨1, one_pos, ?_⟩, ⟨1/2, 1/4, 1/4, by norm_num, by norm_num, by norm_num, by norm_num, ?_⟩, ?_⟩
  · intro s t h
    rw [forall_fin3] at h
    simp only [at3_zero, at3_one, at3_two] at h
    constructor <;> linarith [h.1, h.2.1]
  · rw [forall_fin3]; simp
  · rw [forall_fin3]; norm_num
  · rintro ⟨s, t, h⟩
    have := h 2
    norm_num at this

theorem collectRayMeshLoop_spec (anchor dir : Point3D ℝ) (mesh : TMesh (Point3D ℝ))
    (ids : List Nat) (hm : ∀ i ∈ ids, ∃ v1 v2 v3, mesh.faceVertices i = some (v1, v2, v3) ∧ NonDegenerate v1 v2 v3)
    (acc : List (Point3D ℝ)) :
    ∃ os : List (Option (Point3D ℝ)), collectRayMeshLoop anchor dir mesh ids acc = some (acc ++ os.filterMap id) ∧
      os.length = ids.length ∧
      ∀ (j i : Nat), ids[j]? = some i → ∃ v1 v2 v3, mesh.faceVertices i = some (v1, v2, v3) ∧
        ∀ p, os[j]? = some (some p) ↔ RayHits anchor dir v1 v2 v3 p := by
  induction ids generalizing acc with
  | nil => exact ⟨[], by simp [collectRayMeshLoop]⟩
  | cons i rest ih =>
    obtain ⟨v1, v2, v3, hv, hd⟩ := hm i (by simp)
    obtain ⟨r, hr, hs, -⟩ := c46_ray_triangle anchor dir v1 v2 v3 hd
    have hrest : ∀ acc, _ := ih (fun k hk => hm k (by simp [hk]))
    obtain ⟨os, h1, h2, h3⟩ := hrest (acc ++ r.toList)
    refine ⟨r :: os, ?_, by simp [h2], ?_⟩
    · cases r with
      | none => simpa [collectRayMeshLoop, hv, hr] using h1
      | some p => simpa [collectRayMeshLoop, hv, hr] using h1
    · intro j i' hj
      cases j with
      | zero =>
        simp at hj
        subst hj
        refine ⟨v1, v2, v3, hv, fun p => ?_⟩
        rw [← hs p]
        simp
      | succ j =>
        simpa using h3 j i' (by simpa using hj)

/-- C46, exact arithmetic: on a mesh whose faces exist and are non degenerate, the intersections already
present are kept and the intersections of the faces are appended in face order, one per face the ray
hits, none for the others. -/
theorem c46_ray_mesh (anchor dir : Point3D ℝ) (mesh : TMesh (Point3D ℝ))
    (hm : ∀ i < mesh.faces.length, ∃ v1 v2 v3, mesh.faceVertices i = some (v1, v2, v3) ∧ NonDegenerate v1 v2 v3)
    (acc : List (Point3D ℝ)) :
    ∃ os : List (Option (Point3D ℝ)),
      collectIntersectionsRayMesh anchor dir mesh acc = some (acc ++ os.filterMap id) ∧
      os.length = mesh.faces.length ∧
      ∀ i < mesh.faces.length, ∃ v1 v2 v3, mesh.faceVertices i = some (v1, v2, v3) ∧
        ∀ p, os[i]? = some (some p) ↔ RayHits anchor dir v1 v2 v3 p := by
  obtain ⟨os, h1, h2, h3⟩ := collectRayMeshLoop_spec anchor dir mesh (List.range mesh.numFaces)
    (fun i hi => hm i (by simpa [TMesh.numFaces] using hi)) acc
  exact ⟨os, h1, by simpa [TMesh.numFaces] using h2, fun i hi => h3 i i (by simp [TMesh.numFaces, hi])⟩

/-- C46 violated in binary64: a ray pointing away from a large (finite, non degenerate) triangle is
reported as a hit, because the normal overflows to NaN and every rejection test is false on NaN. -/
theorem c46_float_violated : ∃ anchor dir v1 v2 v3 p : Point3D F64,
    anchor = ⟨.ofRat (-5), .ofRat (-5), .ofRat 1⟩ ∧ dir = Norm3D.normZ ∧
    v1 = ⟨.ofRat 0, .ofRat 0, .ofRat 0⟩ ∧ v2 = ⟨.ofRat (10 ^ 200), .ofRat 0, .ofRat 0⟩ ∧
    v3 = ⟨.ofRat 0, .ofRat (10 ^ 200), .ofRat 0⟩ ∧
    intersectionRayTriangle anchor dir v1 v2 v3 = some (some p) ∧ p = ⟨.nan, .nan, .nan⟩ := by
  refine ⟨_, _, _, _, _, _, rfl, rfl, rfl, rfl, rfl, ?_, rfl⟩
  decide +kernel

/-- a mesh of two triangles for `c46_ray_mesh` -/
example : let mesh : TMesh (Point3D ℝ) := ⟨[⟨0, 0, 1⟩, ⟨4, 0, 1⟩, ⟨0, 4, 1⟩, ⟨4, 4, 2⟩], [⟨0, 1, 2⟩, ⟨1, 3, 2⟩]⟩
    ∀ i < mesh.faces.length, ∃ v1 v2 v3, mesh.faceVertices i = some (v1, v2, v3) ∧ NonDegenerate v1 v2 v3 := by
  intro mesh i hi
  have : i = 0 ∨ i = 1 := by
    have : i < 2 := hi
    omega
  rcases this with rfl | rfl
  · refine ⟨_, _, _, rfl, fun s t h => ?_⟩
    rw [forall_fin3] at h
    simp only [at3_zero, at3_one, at3_two] at h
    constructor <;> linarith [h.1, h.2.1]
  · refine ⟨_, _, _, rfl, fun s t h => ?_⟩
    rw [forall_fin3] at h
    simp only [at3_zero, at3_one, at3_two] at h
    constructor <;> linarith [h.1, h.2.1]

end R3D
