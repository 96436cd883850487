import Verif.Model.Lines
import Verif.Props.VectorFloat
import Verif.Props.Positive
import Verif.Props.BoxFloat
import Verif.Props.Matrix
/-!
# C103: operators of points and normals, moved lines and rays, projections
-/
namespace R3D
open Scalar LawfulScalar Spec F64

/-! exact arithmetic: the operators are those of the vector space -/

theorem c103_real_2d (p q : Point2D ℝ) (f : ℝ) :
    at2 (p.add q) = at2 p + at2 q ∧ at2 (p.sub q) = at2 p - at2 q ∧ at2 (p.smul f) = f • at2 p ∧
    at2 (p.sdiv f) = f⁻¹ • at2 p ∧ at2 p.neg = -at2 p ∧
    at2 (Norm2D.mul p f) = f • at2 p ∧ at2 (Norm2D.neg p) = -at2 p := by
  refine ⟨?_, ?_, ?_, ?_, ?_, ?_, ?_⟩ <;> funext d <;> revert d <;> rw [Fin.forall_fin_two] <;>
    simp [Point2D.add, Point2D.sub, Point2D.smul, Point2D.sdiv, Point2D.neg, Norm2D.mul, Norm2D.neg, div_eq_inv_mul]

/-- C103: the operators of points are those of the vector space -/
theorem c103_real_3d (p q : Point3D ℝ) (f : ℝ) :
    at3 (p.add q) = at3 p + at3 q ∧ at3 (p.sub q) = at3 p - at3 q ∧ at3 (p.smul f) = f • at3 p ∧
    at3 (p.sdiv f) = f⁻¹ • at3 p ∧ at3 p.neg = -at3 p ∧
    at3 (Norm3D.mul p f) = f • at3 p ∧ at3 (Norm3D.neg p) = -at3 p := by
  refine ⟨?_, ?_, ?_, ?_, ?_, ?_, ?_⟩ <;> funext d <;> revert d <;> rw [forall_fin3] <;>
    simp [Point3D.add, Point3D.sub, Point3D.smul, Point3D.sdiv, Point3D.neg, Norm3D.mul, Norm3D.neg, div_eq_inv_mul]

/-! doubles: one rounding for every coordinate -/

/-- `r` is the real number `x` up to one rounding -/
def Spec.OneRounding (r : F64) (x : ℝ) : Prop :=
  |x| ≤ 2 ^ (1023 : ℤ) → F64.Num r ∧ |toR r - x| ≤ 2 ^ (-53 : ℤ) * |x| + 2 ^ (-1075 : ℤ)

theorem oneRounding_mul {a b : F64} (ha : F64.Num a) (hb : F64.Num b) : OneRounding (a * b) (toR a * toR b) := toR_mul ha hb
theorem oneRounding_div {a b : F64} (ha : F64.Num a) (hb : F64.Num b) (h : toR b ≠ 0) : OneRounding (a / b) (toR a / toR b) :=
  toR_div ha hb h

/-- C103: sums, differences, multiples and quotients of points of doubles, coordinate by coordinate; a difference is the sum
with the opposite, and taking the opposite is exact -/
theorem c103_round_2d (p q : Point2D F64) (f : F64) (hp : p.Num) (hq : q.Num) (hf : F64.Num f) (d : Fin 2) :
    IsSum (at2 p d) (at2 q d) (at2 (p.add q) d) ∧
    IsSum (at2 p d) (F64.neg (at2 q d)) (at2 (p.sub q) d) ∧
    OneRounding (at2 (p.smul f) d) (toR f * toR (at2 p d)) ∧
    (toR f ≠ 0 → OneRounding (at2 (p.sdiv f) d) (toR (at2 p d) / toR f)) ∧
    F64.Num (at2 p.neg d) ∧ toR (at2 p.neg d) = -toR (at2 p d) ∧
    at2 (Norm2D.mul p f) d = at2 (p.smul f) d ∧ at2 (Norm2D.neg p) d = at2 p.neg d := by
  revert d
  rw [Fin.forall_fin_two]
  refine ⟨⟨isSum_add hp.1 hq.1, isSum_add hp.1 hq.1.neg, oneRounding_mul hf hp.1, fun h => oneRounding_div hp.1 hf h, hp.1.neg,
      toR_neg hp.1, rfl, rfl⟩,
    isSum_add hp.2 hq.2, isSum_add hp.2 hq.2.neg, oneRounding_mul hf hp.2, fun h => oneRounding_div hp.2 hf h, hp.2.neg,
      toR_neg hp.2, rfl, rfl⟩

theorem c103_round_3d (p q : Point3D F64) (f : F64) (hp : p.Num) (hq : q.Num) (hf : F64.Num f) (d : Fin 3) :
    IsSum (at3 p d) (at3 q d) (at3 (p.add q) d) ∧
    IsSum (at3 p d) (F64.neg (at3 q d)) (at3 (p.sub q) d) ∧
    OneRounding (at3 (p.smul f) d) (toR f * toR (at3 p d)) ∧
    (toR f ≠ 0 → OneRounding (at3 (p.sdiv f) d) (toR (at3 p d) / toR f)) ∧
    F64.Num (at3 p.neg d) ∧ toR (at3 p.neg d) = -toR (at3 p d) ∧
    at3 (Norm3D.mul p f) d = at3 (p.smul f) d ∧ at3 (Norm3D.neg p) d = at3 p.neg d := by
  revert d
  rw [forall_fin3]
  obtain ⟨h1, h2, h3⟩ := hp
  obtain ⟨k1, k2, k3⟩ := hq
  exact ⟨⟨isSum_add h1 k1, isSum_add h1 k1.neg, oneRounding_mul hf h1, fun h => oneRounding_div h1 hf h, h1.neg, toR_neg h1, rfl, rfl⟩,
    ⟨isSum_add h2 k2, isSum_add h2 k2.neg, oneRounding_mul hf h2, fun h => oneRounding_div h2 hf h, h2.neg, toR_neg h2, rfl, rfl⟩,
    isSum_add h3 k3, isSum_add h3 k3.neg, oneRounding_mul hf h3, fun h => oneRounding_div h3 hf h, h3.neg, toR_neg h3, rfl, rfl⟩

/-! laws that hold for every double, bit for bit -/
namespace F64
theorem neg_neg' (a : F64) : F64.neg (F64.neg a) = a := by cases a <;> simp [F64.neg]
theorem neg_mul_neg' (a b : F64) : F64.mul (F64.neg a) (F64.neg b) = F64.mul a b := by
  cases a <;> cases b <;> simp [F64.mul, F64.neg]
theorem round_neg' (s : Bool) (q : ℚ) : F64.round (!s) q = F64.neg (F64.round s q) := by
  unfold F64.round
  split_ifs
  · rfl
  · dsimp only
    split_ifs <;> rfl
theorem mul_neg' (a b : F64) : F64.mul a (F64.neg b) = F64.neg (F64.mul a b) := by
  cases a with
  | nan => rfl
  | inf s =>
    cases b with
    | nan => rfl
    | inf t => simp [F64.mul, F64.neg]
    | fin t n => simp only [F64.mul, F64.neg]; split_ifs <;> simp
  | fin s m =>
    cases b with
    | nan => rfl
    | inf t => simp only [F64.mul, F64.neg]; split_ifs <;> simp
    | fin t n =>
      show F64.round (xor s !t) (m * n) = F64.neg (F64.round (xor s t) (m * n))
      rw [← round_neg', Bool.xor_not]
end F64

theorem p3_ext {a b : Point3D F64} (h1 : a.x = b.x) (h2 : a.y = b.y) (h3 : a.z = b.z) : a = b := by
  cases a; cases b; simp_all
theorem p2_ext {a b : Point2D F64} (h1 : a.x = b.x) (h2 : a.y = b.y) : a = b := by
  cases a; cases b; simp_all

/-- C103: for all doubles, also infinite ones: addition commutes, a difference is the sum with the opposite, the opposite of
the opposite is the point, a multiple of the opposite is the opposite of the multiple -/
theorem c103_laws (p q : Point3D F64) (v w : Point2D F64) (f : F64) :
    p.add q = q.add p ∧ p.sub q = p.add q.neg ∧ p.neg.neg = p ∧ p.neg.smul f = (p.smul f).neg ∧
    v.add w = w.add v ∧ v.sub w = v.add w.neg ∧ v.neg.neg = v ∧ v.neg.smul f = (v.smul f).neg := by
  refine ⟨?_, rfl, ?_, ?_, ?_, rfl, ?_, ?_⟩
  · exact p3_ext (F64.add_comm' _ _) (F64.add_comm' _ _) (F64.add_comm' _ _)
  · exact congr (congr (congrArg Point3D.mk (F64.neg_neg' _)) (F64.neg_neg' _)) (F64.neg_neg' _)
  · exact p3_ext (F64.mul_neg' _ _) (F64.mul_neg' _ _) (F64.mul_neg' _ _)
  · exact p2_ext (F64.add_comm' _ _) (F64.add_comm' _ _)
  · exact p2_ext (F64.neg_neg' _) (F64.neg_neg' _)
  · exact p2_ext (F64.mul_neg' _ _) (F64.mul_neg' _ _)

/-- C103: … and scaling a finite point by one changes nothing -/
theorem c103_one (p : Point3D F64) (hp : p.Num) : p.smul (lit 1) = p := by
  obtain ⟨h1, h2, h3⟩ := hp
  have g : ∀ {a : F64}, F64.Num a → (lit 1 : F64) * a = a := fun h => (F64.mul_comm' _ _).trans (mul_one_num h)
  exact p3_ext (g h1) (g h2) (g h3)

/-- C103 (violated laws): sums of doubles are not associative, and dividing a multiple by the factor need not return the
point, even without overflow -/
theorem c103_violated :
    (∃ p q r : Point3D F64, p.Num ∧ q.Num ∧ r.Num ∧ ((p.add q).add r).beq (p.add (q.add r)) = false) ∧
    (∃ (p : Point3D F64) (s : F64), p.Num ∧ F64.Num s ∧ ((p.smul s).sdiv s).beq p = false) := by
  have n0 := (ex_num 0 false 0 (by decide +kernel)).1
  have n1 := (ex_num 1 false 1 (by decide +kernel)).1
  have nb := (ex_num 9007199254740992 false 9007199254740992 (by decide +kernel)).1
  have n3 := (ex_num 3 false 3 (by decide +kernel)).1
  have nt := (ex_num (1/10) false (3602879701896397/36028797018963968) (by decide +kernel)).1
  exact ⟨⟨⟨f 1, f 0, f 0⟩, ⟨f 9007199254740992, f 0, f 0⟩, ⟨F64.neg (f 9007199254740992), f 0, f 0⟩,
    ⟨n1, n0, n0⟩, ⟨nb, n0, n0⟩, ⟨nb.neg, n0, n0⟩, by decide +kernel⟩,
    ⟨f (1/10), f 0, f 0⟩, f 3, ⟨nt, n0, n0⟩, n3, by decide +kernel⟩

/-! opposite vectors, normals and lengths -/

/-- C103: the opposite vector has the same length and the opposite normal, bit for bit, for all doubles -/
theorem c103_opposite (p : Point3D F64) (v : Point2D F64) :
    p.neg.abs = p.abs ∧ v.neg.abs = v.abs ∧
    Norm3D.new p.neg = (Norm3D.new p).map (Except.map Norm3D.neg) ∧ Norm2D.new v.neg = (Norm2D.new v).map (Except.map Norm2D.neg) := by
  have e : ∀ a : F64, Scalar.sq (-a) = Scalar.sq a := fun a => F64.neg_mul_neg' a a
  have e1 : p.neg.abs = p.abs := by simp only [Point3D.abs, Point3D.neg, e]
  have e2 : v.neg.abs = v.abs := by simp only [Point2D.abs, Point2D.neg, e]
  refine ⟨e1, e2, ?_, ?_⟩
  · unfold Norm3D.new
    rw [e1]
    cases p.abs with
    | none => rfl
    | some l =>
      simp only [Option.bind_eq_bind, Option.bind_some, Option.pure_def, Option.map_some]
      split_ifs
      · rfl
      · exact congrArg (fun x => some (Except.ok x))
          (p3_ext (F64.mul_neg' _ _) (F64.mul_neg' _ _) (F64.mul_neg' _ _))
  · unfold Norm2D.new
    rw [e2]
    cases v.abs with
    | none => rfl
    | some l =>
      simp only [Option.bind_eq_bind, Option.bind_some, Option.pure_def, Option.map_some]
      split_ifs
      · rfl
      · exact congrArg (fun x => some (Except.ok x)) (p2_ext (F64.mul_neg' _ _) (F64.mul_neg' _ _))

/-- C103: a vector is its normal times its length (exact arithmetic) -/
theorem c103_recompose (p n : Point3D ℝ) (l : NonNegative ℝ) (h : Norm3D.new p = some (.ok n)) (hl : p.abs = some l) :
    Norm3D.mul n l.val = p := by
  unfold Norm3D.new at h
  simp only [hl, Option.bind_eq_bind, Option.bind_some, Option.pure_def, Option.some.injEq] at h
  split_ifs at h with h0
  have h0' : l.val ≠ 0 := by
    intro hc; apply h0; rw [hc]; simp
  cases h
  cases p
  simp only [Norm3D.mul]
  congr 1 <;> simp <;> field_simp

/-- C103: … and with doubles up to `2^-46` of the length in every coordinate -/
theorem c103_recompose_round (p : Point3D F64) (hp : p.Num) (h1 : 2 ^ (-480 : ℤ) ≤ len3 p) (h2 : len3 p ≤ 2 ^ (500 : ℤ)) :
    ∃ n l, Norm3D.new p = some (.ok n) ∧ p.abs = some l ∧
      ∀ d, F64.Num (at3 (Norm3D.mul n l.val) d) ∧ |toR (at3 (Norm3D.mul n l.val) d) - toR (at3 p d)| ≤ 2 ^ (-46 : ℤ) * len3 p := by
  obtain ⟨D, e, hn, hd, h0⟩ := abs_len_3d p hp h1 h2
  obtain ⟨n, hnew, hN⟩ := c100_norm_3d p hp h1 h2
  refine ⟨n, _, hnew, e, ?_⟩
  have hL : 0 < len3 p := lt_of_lt_of_le (zpow_pos two_pos _) h1
  have key : ∀ {x y : F64}, |toR x| ≤ len3 p → F64.Num y → |toR y - toR x / len3 p| ≤ 2 ^ (-48 : ℤ) →
      F64.Num (.fin false D * y) ∧ |toR (.fin false D * y) - toR x| ≤ 2 ^ (-46 : ℤ) * len3 p := by
    intro x y hx hy hxy
    have hD : Num (.fin false D) := hn
    generalize hl : toR (.fin false D) = l at hd
    generalize len3 p = L at *
    obtain ⟨a1, a2⟩ := abs_le.1 hd
    have q1 : |toR x / L| ≤ 1 := by rw [abs_div, abs_of_pos hL]; exact (div_le_one hL).2 hx
    have e49 : (2:ℝ) ^ (-49 : ℤ) = 1 / 2 ^ 49 := by norm_num
    have e48 : (2:ℝ) ^ (-48 : ℤ) = 1 / 2 ^ 48 := by norm_num
    have e46 : (2:ℝ) ^ (-46 : ℤ) = 1 / 2 ^ 46 := by norm_num
    have e53 : (2:ℝ) ^ (-53 : ℤ) = 1 / 2 ^ 53 := by norm_num
    rw [e49] at hd a1 a2
    rw [e48] at hxy
    have l1 : |l| ≤ (1 + 1 / 2 ^ 49) * L := by rw [abs_le]; constructor <;> nlinarith
    have b1 : |l * toR y - toR x| ≤ 1 / 2 ^ 48 * ((1 + 1 / 2 ^ 49) * L) + 1 / 2 ^ 49 * L := by
      have e : l * toR y - toR x = l * (toR y - toR x / L) + toR x / L * (l - L) := by field_simp; ring
      rw [e]
      refine (abs_add_le _ _).trans (add_le_add ?_ ?_)
      · rw [abs_mul, mul_comm]
        exact mul_le_mul hxy l1 (abs_nonneg _) (by norm_num)
      · rw [abs_mul]
        calc |toR x / L| * |l - L| ≤ 1 * (1 / 2 ^ 49 * L) := mul_le_mul q1 hd (abs_nonneg _) zero_le_one
          _ = _ := one_mul _
    have b2 : |l * toR y| ≤ 2 * L := by
      have := abs_add_le (l * toR y - toR x) (toR x)
      rw [sub_add_cancel] at this
      linarith
    have hmax : |l * toR y| ≤ 2 ^ (1023 : ℤ) := by
      refine b2.trans ((mul_le_mul_of_nonneg_left h2 (by norm_num)).trans ?_)
      rw [show (2:ℝ) * 2 ^ (500 : ℤ) = 2 ^ (501 : ℤ) by rw [show (501:ℤ) = 500 + 1 by norm_num, zpow_add₀ two_ne_zero]; ring]
      exact zpow_le_zpow_right₀ one_le_two (by norm_num)
    rw [← hl] at hmax
    obtain ⟨m1, m2⟩ := toR_mul hD hy hmax
    rw [hl] at m2
    refine ⟨m1, ?_⟩
    have hη : (2:ℝ) ^ (-1075 : ℤ) ≤ 1 / 2 ^ 53 * L := by
      refine le_trans ?_ (mul_le_mul_of_nonneg_left h1 (by positivity))
      rw [← e53, ← zpow_add₀ two_ne_zero]
      exact zpow_le_zpow_right₀ one_le_two (by norm_num)
    rw [e53] at m2
    rw [e46]
    have := abs_sub_le (toR (.fin false D * y)) (l * toR y) (toR x)
    generalize (2:ℝ) ^ (-1075 : ℤ) = η at *
    linarith
  rw [forall_fin3] at hN ⊢
  exact ⟨key (coord_le_3d p 0) hN.1.1 hN.1.2, key (coord_le_3d p 1) hN.2.1.1 hN.2.1.2, key (coord_le_3d p 2) hN.2.2.1 hN.2.2.2⟩

/-! lines, rays and planes as sets of points -/

/-- the points of the line through `a` in direction `d` -/
def Spec.linePts {n : ℕ} (a d : Fin n → ℝ) : Set (Fin n → ℝ) := {x | ∃ t : ℝ, x = a + t • d}
/-- the points of the ray from `a` in direction `d` -/
def Spec.rayPts {n : ℕ} (a d : Fin n → ℝ) : Set (Fin n → ℝ) := {x | ∃ t : ℝ, 0 ≤ t ∧ x = a + t • d}

theorem linePts_add {n : ℕ} (a d m x : Fin n → ℝ) : x + m ∈ linePts (a + m) d ↔ x ∈ linePts a d := by
  constructor
  · rintro ⟨t, ht⟩; exact ⟨t, by rw [← add_left_inj m, ht]; abel⟩
  · rintro ⟨t, rfl⟩; exact ⟨t, by abel⟩
theorem rayPts_add {n : ℕ} (a d m x : Fin n → ℝ) : x + m ∈ rayPts (a + m) d ↔ x ∈ rayPts a d := by
  constructor
  · rintro ⟨t, h0, ht⟩; exact ⟨t, h0, by rw [← add_left_inj m, ht]; abel⟩
  · rintro ⟨t, h0, rfl⟩; exact ⟨t, h0, by abel⟩

theorem at2_moveBy (p : Point2D ℝ) (m : Point2D ℝ) : at2 (p.moveBy m.x m.y) = at2 p + at2 m := by
  funext d; revert d; rw [Fin.forall_fin_two]; exact ⟨rfl, rfl⟩
theorem at3_moveBy (p : Point3D ℝ) (m : Point3D ℝ) : at3 (p.moveBy m.x m.y m.z) = at3 p + at3 m := by
  funext d; revert d; rw [forall_fin3]; exact ⟨rfl, rfl, rfl⟩

/-- C103: moving a line or a ray moves exactly its points -/
theorem c103_moved (l : Line2D ℝ) (r : Ray2D ℝ) (m : Point2D ℝ) (L : Line3D ℝ) (R : Ray3D ℝ) (M : Point3D ℝ)
    (x : Fin 2 → ℝ) (X : Fin 3 → ℝ) :
    (x + at2 m ∈ linePts (at2 (l.moveBy m.x m.y).anchor) (at2 (l.moveBy m.x m.y).dir) ↔ x ∈ linePts (at2 l.anchor) (at2 l.dir)) ∧
    (x + at2 m ∈ rayPts (at2 (r.moveBy m.x m.y).line.anchor) (at2 (r.moveBy m.x m.y).line.dir) ↔
      x ∈ rayPts (at2 r.line.anchor) (at2 r.line.dir)) ∧
    (X + at3 M ∈ linePts (at3 (L.moveBy M.x M.y M.z).anchor) (at3 (L.moveBy M.x M.y M.z).dir) ↔
      X ∈ linePts (at3 L.anchor) (at3 L.dir)) ∧
    (X + at3 M ∈ rayPts (at3 (R.moveBy M.x M.y M.z).line.anchor) (at3 (R.moveBy M.x M.y M.z).line.dir) ↔
      X ∈ rayPts (at3 R.line.anchor) (at3 R.line.dir)) := by
  simp only [Line2D.moveBy, Ray2D.moveBy, Line3D.moveBy, Ray3D.moveBy, at2_moveBy, at3_moveBy]
  exact ⟨linePts_add _ _ _ _, rayPts_add _ _ _ _, linePts_add _ _ _ _, rayPts_add _ _ _ _⟩

/-- C103: … with doubles the direction stays the same and the anchor is moved up to one rounding -/
theorem c103_moved_round (R : Ray3D F64) (M : Point3D F64) (hR : R.line.anchor.Num) (hM : M.Num) :
    (R.moveBy M.x M.y M.z).line.dir = R.line.dir ∧
    ∀ d, IsSum (at3 R.line.anchor d) (at3 M d) (at3 (R.moveBy M.x M.y M.z).line.anchor d) := by
  refine ⟨rfl, ?_⟩
  rw [forall_fin3]
  exact ⟨isSum_add hR.1 hM.1, isSum_add hR.2.1 hM.2.1, isSum_add hR.2.2 hM.2.2⟩

/-- C103: the default plane is the plane `z = 0`, with unit directions that are perpendicular -/
theorem c103_plane (x : Fin 3 → ℝ) :
    ((∃ s t : ℝ, x = at3 (Plane3D.default : Plane3D ℝ).origin + s • at3 (Plane3D.default : Plane3D ℝ).u +
      t • at3 (Plane3D.default : Plane3D ℝ).v) ↔ x 2 = 0) ∧
    (Plane3D.default : Plane3D ℝ).u.dot (Plane3D.default : Plane3D ℝ).v = 0 := by
  constructor
  · constructor
    · rintro ⟨s, t, rfl⟩
      simp [Plane3D.default, Norm3D.normX, Norm3D.normY, Point3D.default]
    · intro h
      refine ⟨x 0, x 1, ?_⟩
      funext d; revert d; rw [forall_fin3]
      simp [Plane3D.default, Norm3D.normX, Norm3D.normY, Point3D.default, h]
  · simp [Plane3D.default, Norm3D.normX, Norm3D.normY, Point3D.dot]

/-! projections -/

/-- C103: lifting a 2D point to any height and projecting it back returns it, bit for bit -/
theorem c103_lift {α : Type} [Scalar α] (p : Point2D α) (z : α) (q : Point3D α) :
    (p.transformTo3D z).transformTo2D = p ∧ (p.transformTo3D z).z = z ∧ q.transformTo2D.transformTo3D q.z = q := ⟨rfl, rfl, rfl⟩

/-- C103: with doubles, a projection never increases the computed distance, and points of equal height keep theirs -/
theorem c103_project (p q : Point3D F64) (hp : p.Num) (hq : q.Num) :
    (q.transformTo2D.dist p.transformTo2D >. q.dist p) = false ∧
    ∀ (v w : Point2D F64) (z : F64), v.Num → w.Num → F64.Num z →
      ((v.transformTo3D z).dist (w.transformTo3D z) ==. v.dist w) = true := by
  have h2 : NonNeg (q.transformTo2D.sqrDist p.transformTo2D) := add_nonNeg (Point3D.sq_sub_nonNeg hq.1 hp.1) (Point3D.sq_sub_nonNeg hq.2.1 hp.2.1)
  have h3 : NonNeg (q.sqrDist p) := Point3D.sqrDist_nonNeg hq hp
  refine ⟨?_, ?_⟩
  · have := key_sqrt_mono h2 h3 (key_le_add_left h2 (Point3D.sq_sub_nonNeg hq.2.2 hp.2.2))
    rw [← Bool.not_eq_true, lt_of_ok (sqrt_nonNeg h3).ok (sqrt_nonNeg h2).ok]
    exact not_lt.2 this
  · intro v w z hv hw hz
    have hs : NonNeg (v.sqrDist w) := add_nonNeg (Point3D.sq_sub_nonNeg hv.1 hw.1) (Point3D.sq_sub_nonNeg hv.2 hw.2)
    have e : Scalar.sq (z - z) = .fin false 0 := by
      obtain ⟨⟨s, m, rfl⟩, -⟩ := hz
      have : (F64.fin s m - F64.fin s m) = F64.fin false 0 := by
        show F64.add (.fin s m) (.fin (!s) m) = _
        simp only [F64.add, val_neg]
        rw [if_pos (by ring)]
        cases s <;> rfl
      rw [this]; decide +kernel
    have h0 := F64.add_zero_key hs.ok hs.rep false
    have hn : NonNeg (v.sqrDist w + .fin false 0) := add_nonNeg hs (.inr ⟨0, rfl, ⟨le_rfl, two_zpow_pos _, 0, 0, by norm_num, by norm_num, by simp⟩⟩)
    show (Scalar.sqrt (v.sqrDist w + Scalar.sq (z - z)) ==. Scalar.sqrt (v.sqrDist w)) = true
    rw [e, eq_of_ok (sqrt_nonNeg hn).ok (sqrt_nonNeg hs).ok]
    exact le_antisymm (key_sqrt_mono hn hs h0.2.1.le) (key_sqrt_mono hs hn h0.2.1.ge)

/-! the hypotheses can be met -/
example : (⟨f 1, f (1/10), f (-3)⟩ : Point3D F64).Num ∧ (⟨f 1, f (1/10)⟩ : Point2D F64).Num ∧ F64.Num (f 3) ∧ toR (f 3) ≠ 0 := by
  have n1 := (ex_num 1 false 1 (by decide +kernel)).1
  have n3 := ex_num 3 false 3 (by decide +kernel)
  have nm := (ex_num (-3) true 3 (by decide +kernel)).1
  have nt := (ex_num (1/10) false (3602879701896397/36028797018963968) (by decide +kernel)).1
  exact ⟨⟨n1, nt, nm⟩, ⟨n1, nt⟩, n3.1, by rw [n3.2]; norm_num [val]⟩

example : ∃ n, Norm3D.new (⟨3, 4, 0⟩ : Point3D ℝ) = some (.ok n) ∧ (⟨3, 4, 0⟩ : Point3D ℝ).abs = some ⟨5⟩ := by
  have h : (⟨3, 4, 0⟩ : Point3D ℝ).abs = some ⟨5⟩ := by
    rw [Point3D.abs_real, show (3:ℝ) ^ 2 + 4 ^ 2 + 0 ^ 2 = 5 ^ 2 by norm_num, Real.sqrt_sq (by norm_num)]
  refine ⟨⟨3/5, 4/5, 0⟩, ?_, h⟩
  unfold Norm3D.new
  simp only [h, Option.bind_eq_bind, Option.bind_some, Option.pure_def]
  rw [if_neg (by simp)]
  simp only [Real.scalar_lit]
  norm_num

example : 2 ^ (-480 : ℤ) ≤ len3 (⟨f 3, f 4, f 0⟩ : Point3D F64) ∧ len3 (⟨f 3, f 4, f 0⟩ : Point3D F64) ≤ 2 ^ (500 : ℤ) := by
  have n0 := (ex_num 0 false 0 (by decide +kernel)).2
  have n3 := (ex_num 3 false 3 (by decide +kernel)).2
  have n4 := (ex_num 4 false 4 (by decide +kernel)).2
  have : len3 (⟨f 3, f 4, f 0⟩ : Point3D F64) = 5 := by
    unfold Spec.len3 Spec.sqrDist
    rw [Fin.sum_univ_three]
    simp only [Point3D.real, at3_zero, at3_one, at3_two, n0, n3, n4, val, Pi.zero_apply]
    rw [show ∀ x : ℝ, √x = √x from fun _ => rfl]
    norm_num
    rw [show (25:ℝ) = 5 ^ 2 by norm_num, Real.sqrt_sq (by norm_num)]
  rw [this]
  constructor
  · exact (zpow_le_zpow_right₀ one_le_two (show (-480:ℤ) ≤ 0 by norm_num)).trans (by norm_num)
  · exact le_trans (by norm_num) (zpow_le_zpow_right₀ one_le_two (show (3:ℤ) ≤ 500 by norm_num))

end R3D
