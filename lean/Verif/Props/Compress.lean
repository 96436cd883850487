import Verif.Model.Compress
import Verif.Model.F64
import Verif.Lemmas.BBCloud
/-!
# C42: compressed point clouds
-/
namespace R3D
open Scalar LawfulScalar Spec

theorem castTo_real {bits : Nat} (h64 : bits < 64) {x : ℝ} (h0 : 0 ≤ x) (h1 : x ≤ maxValue bits) :
    castTo bits x = some ⌊x⌋₊ := by
  unfold castTo
  rw [if_pos h64, if_pos]
  · simp only [Real.scalar_toNatSat, Option.some.injEq]
    exact min_eq_right (Nat.floor_le_of_le h1)
  · simp only [Real.scalar_lt, Real.scalar_lit, Bool.and_eq_true, decide_eq_true_eq]
    push_cast
    constructor <;> linarith

theorem mapM_ok {β γ : Type} (f : β → Res γ) (g : β → γ) : ∀ (l : List β), (∀ x ∈ l, f x = .ok (g x)) →
    l.mapM f = .ok (l.map g) := by
  intro l
  induction l with
  | nil => intro _; rfl
  | cons a l ih =>
    intro h
    rw [List.mapM_cons, h a (by simp), ih (fun x hx => h x (by simp [hx]))]
    rfl

theorem mapM_error {β γ : Type} (f : β → Res γ) (e : ErrorKind) : ∀ (l : List β),
    (∀ x ∈ l, ∀ e', f x = .error e' → e' = e) → (∃ x ∈ l, f x = .error e) → l.mapM f = .error e := by
  intro l
  induction l with
  | nil => rintro - ⟨x, hx, -⟩; simp at hx
  | cons a l ih =>
    rintro h ⟨x, hx, hxe⟩
    rw [List.mapM_cons]
    cases ha : f a with
    | error e' =>
      rw [h a (by simp) e' ha]; rfl
    | ok b =>
      have : l.mapM f = .error e := by
        apply ih (fun y hy => h y (by simp [hy]))
        rcases List.mem_cons.1 hx with rfl | hx
        · rw [ha] at hxe; simp at hxe
        · exact ⟨x, hx, hxe⟩
      rw [this]; rfl

/-- what one coordinate becomes: the multiple of the unit at or below it, counted from `lo` -/
noncomputable def Spec.quantised (lo hi : ℝ) (n : Nat) (x : ℝ) : ℝ :=
  lo + (hi - lo) / n * ⌊(x - lo) / ((hi - lo) / n)⌋₊

theorem quantised_bounds {lo hi x : ℝ} {n : Nat} (hn : 0 < n) (h : lo < hi) (h1 : lo ≤ x) :
    quantised lo hi n x ≤ x ∧ x - quantised lo hi n x < (hi - lo) / n := by
  have hn' : (0:ℝ) < n := by exact_mod_cast hn
  have hu : 0 < (hi - lo) / n := div_pos (sub_pos.2 h) hn'
  unfold quantised
  generalize (hi - lo) / n = u at hu
  have hq : 0 ≤ (x - lo) / u := div_nonneg (sub_nonneg.2 h1) hu.le
  have h2 := Nat.floor_le hq
  have h3 := Nat.lt_floor_add_one ((x - lo) / u)
  rw [le_div_iff₀ hu] at h2
  rw [div_lt_iff₀ hu] at h3
  constructor <;> nlinarith

theorem quantised_lo (lo hi : ℝ) (n : Nat) : quantised lo hi n lo = lo := by simp [quantised]

theorem quantised_hi {lo hi : ℝ} {n : Nat} (hn : 0 < n) (h : lo < hi) : quantised lo hi n hi = hi := by
  have hn' : (0:ℝ) < n := by exact_mod_cast hn
  have hs : hi - lo ≠ 0 := (sub_pos.2 h).ne'
  unfold quantised
  rw [div_div_cancel₀ hs, Nat.floor_natCast]
  field_simp
  ring

namespace CompressedPointCloud3D

theorem compress_real {bits : Nat} (h0 : 0 < bits) (h64 : bits < 64) (pc : List (Point3D ℝ)) (b : BoundingBox3D ℝ)
    (hb : IsBB3 pc b) : ∃ c, compress bits pc = .ok c ∧
      c.decompress = pc.map fun p =>
        ⟨quantised b.min.x b.max.x (maxValue bits) p.x, quantised b.min.y b.max.y (maxValue bits) p.y,
         quantised b.min.z b.max.z (maxValue bits) p.z⟩ := by
  have hmax : 0 < maxValue bits := by
    have : 2 ^ 1 ≤ 2 ^ bits := Nat.pow_le_pow_right (by norm_num) h0
    unfold maxValue; omega
  have hmax' : (0:ℝ) < maxValue bits := by exact_mod_cast hmax
  obtain ⟨hv, hm, ht⟩ := hb
  have hc : ∀ (lo hi x : ℝ), lo < hi → lo ≤ x → x ≤ hi →
      castTo bits ((x - lo) / (|hi - lo| / maxValue bits)) = some ⌊(x - lo) / ((hi - lo) / maxValue bits)⌋₊ := by
    intro lo hi x h1 h2 h3
    rw [abs_of_pos (sub_pos.2 h1)]
    have hu : 0 < (hi - lo) / maxValue bits := div_pos (sub_pos.2 h1) hmax'
    apply castTo_real h64
    · exact div_nonneg (sub_nonneg.2 h2) hu.le
    · rw [div_le_iff₀ hu]
      field_simp
      linarith
  have hv' := Spec.forall_fin3.1 hv
  simp only [at3_zero, at3_one, at3_two] at hv'
  have habs : ∀ {lo hi : ℝ}, lo < hi → |hi - lo| = hi - lo := fun h => abs_of_pos (sub_pos.2 h)
  unfold compress
  rw [(fromIterator_real_3d pc b).2 ⟨hv, hm, ht⟩]
  simp only [Real.scalar_lit, Real.scalar_abs, Rat.cast_natCast]
  rw [mapM_ok _ (fun p => ⟨⌊(p.x - b.min.x) / ((b.max.x - b.min.x) / maxValue bits)⌋₊,
      ⌊(p.y - b.min.y) / ((b.max.y - b.min.y) / maxValue bits)⌋₊,
      ⌊(p.z - b.min.z) / ((b.max.z - b.min.z) / maxValue bits)⌋₊⟩) pc]
  · refine ⟨_, rfl, ?_⟩
    simp only [decompress, List.map_map, Real.scalar_lit, Rat.cast_natCast]
    apply List.map_congr_left
    intro p _
    simp only [Function.comp, quantised, habs hv'.1, habs hv'.2.1, habs hv'.2.2]
  · intro p hp
    have := Spec.forall_fin3.1 (hm p hp)
    simp only [at3_zero, at3_one, at3_two] at this
    unfold compressPoint
    simp only [hc _ _ _ hv'.1 this.1.1 this.1.2, hc _ _ _ hv'.2.1 this.2.1.1 this.2.1.2,
      hc _ _ _ hv'.2.2 this.2.2.1 this.2.2.2]

/-- C42 (exact arithmetic), integer types of less than 64 bits: every cloud with a bounding box can be
compressed; decompressing gives the same number of points in the same order, no coordinate is increased and each
is off by less than the extent divided by the largest integer; the bounding box stays the same. The part of the
property for 64 bit integers is false (`c42_wide_fails`, `c42_violated`). -/
theorem c42_error_partial (bits : Nat) (h0 : 0 < bits) (h64 : bits < 64) (pc : List (Point3D ℝ))
    (b : BoundingBox3D ℝ) (hb : BoundingBox3D.fromIterator pc = .ok b) :
    ∃ c, compress bits pc = .ok c ∧ c.decompress.length = pc.length ∧
      (∀ (i : Nat) (p : Point3D ℝ), pc[i]? = some p → ∃ q, c.decompress[i]? = some q ∧ ∀ d, at3 q d ≤ at3 p d ∧
        at3 p d - at3 q d < (at3 b.max d - at3 b.min d) / (2 ^ bits - 1)) ∧
      BoundingBox3D.fromIterator c.decompress = .ok b := by
  rw [fromIterator_real_3d] at hb
  obtain ⟨c, hc, hd⟩ := compress_real h0 h64 pc b hb
  have hmax : 0 < maxValue bits := by
    have : 2 ^ 1 ≤ 2 ^ bits := Nat.pow_le_pow_right (by norm_num) h0
    unfold maxValue; omega
  have hcast : ((maxValue bits : Nat) : ℝ) = 2 ^ bits - 1 := by
    unfold maxValue
    rw [Nat.cast_sub Nat.one_le_two_pow]; simp
  have hq : ∀ p ∈ pc, ∀ d, at3 (⟨quantised b.min.x b.max.x (maxValue bits) p.x,
      quantised b.min.y b.max.y (maxValue bits) p.y, quantised b.min.z b.max.z (maxValue bits) p.z⟩ : Point3D ℝ) d
      = quantised (at3 b.min d) (at3 b.max d) (maxValue bits) (at3 p d) := by
    intro p _ d
    match d with
    | 0 => rfl
    | 1 => rfl
    | 2 => rfl
  refine ⟨c, hc, by rw [hd, List.length_map], ?_, ?_⟩
  · intro i p hp
    have hmem : p ∈ pc := List.mem_of_getElem? hp
    refine ⟨_, by rw [hd, List.getElem?_map, hp]; rfl, fun d => ?_⟩
    rw [hq p hmem d, ← hcast]
    exact quantised_bounds hmax (hb.1 d) (hb.2.1 p hmem d).1
  · rw [fromIterator_real_3d, hd]
    refine ⟨hb.1, ?_, ?_⟩
    · intro q hqm d
      obtain ⟨p, hp, rfl⟩ := List.mem_map.1 hqm
      rw [hq p hp d]
      obtain ⟨h1, h2⟩ := hb.2.1 p hp d
      refine ⟨?_, (quantised_bounds hmax (hb.1 d) h1).1.trans h2⟩
      unfold quantised
      have : 0 ≤ (at3 b.max d - at3 b.min d) / (maxValue bits : ℝ) :=
        div_nonneg (sub_nonneg.2 (hb.1 d).le) (Nat.cast_nonneg _)
      have := mul_nonneg this (Nat.cast_nonneg (α := ℝ)
        ⌊(at3 p d - at3 b.min d) / ((at3 b.max d - at3 b.min d) / (maxValue bits : ℝ))⌋₊)
      linarith
    · intro d
      obtain ⟨⟨p, hp, e⟩, q, hq', e'⟩ := hb.2.2 d
      refine ⟨⟨_, List.mem_map.2 ⟨p, hp, rfl⟩, ?_⟩, _, List.mem_map.2 ⟨q, hq', rfl⟩, ?_⟩
      · rw [hq p hp d, e, quantised_lo]
      · rw [hq q hq' d, e', quantised_hi hmax (hb.1 d)]

/-- clouds without a bounding box (fewer than two points, or flat in some dimension) are refused -/
theorem c42_no_box {α : Type} [Scalar α] (bits : Nat) (pc : List (Point3D α)) (e : ErrorKind)
    (h : BoundingBox3D.fromIterator pc = .error e) :
    compress bits pc = .error .BoundingBoxMissing := by
  unfold compress; rw [h]

/-- C42 is violated for 64 bit (and wider) integers: compressing fails for every cloud, because the point with
the largest coordinate maps to the first number that is too large -/
theorem c42_wide_fails (bits : Nat) (h64 : 64 ≤ bits) (pc : List (Point3D ℝ)) : ∃ e, compress bits pc = .error e := by
  cases hb : BoundingBox3D.fromIterator pc with
  | error e => exact ⟨_, c42_no_box bits pc e hb⟩
  | ok b =>
    refine ⟨.NumberConversionError, ?_⟩
    have hb' := (fromIterator_real_3d pc b).1 hb
    unfold compress
    rw [hb]
    dsimp only
    rw [mapM_error]
    · intro p _ e'
      unfold compressPoint
      cases castTo bits ((p.x - b.min.x) / _) with
      | none => intro h; cases h; rfl
      | some x =>
        cases castTo bits ((p.y - b.min.y) / _) with
        | none => intro h; cases h; rfl
        | some y =>
          cases castTo bits ((p.z - b.min.z) / _) with
          | none => intro h; cases h; rfl
          | some z => intro h; cases h
    · obtain ⟨q, hq, e⟩ := (hb'.2.2 0).2
      refine ⟨q, hq, ?_⟩
      simp only [at3_zero] at e
      have hv := hb'.1 0
      simp only [at3_zero] at hv
      have hmax : 0 < maxValue bits := by
        have : 2 ^ 1 ≤ 2 ^ bits := Nat.pow_le_pow_right (by norm_num) (by omega)
        unfold maxValue; omega
      have hmax' : (0:ℝ) < maxValue bits := by exact_mod_cast hmax
      have : castTo bits ((q.x - b.min.x) / (Scalar.abs (b.max.x - b.min.x) / lit (maxValue bits))) = none := by
        unfold castTo
        have h64' : ¬ bits < 64 := by omega
        simp only [if_neg h64']
        rw [if_neg]
        simp only [Real.scalar_lit, Real.scalar_abs, Rat.cast_natCast, Real.scalar_lt, e,
          abs_of_pos (sub_pos.2 hv), div_div_cancel₀ (sub_pos.2 hv).ne', lt_irrefl]
        simp
      unfold compressPoint
      rw [this]

/-- the same with doubles, for a concrete cloud; 8 bits succeed on it -/
theorem c42_violated :
    let pc : List (Point3D F64) := [⟨F64.ofRat 0, F64.ofRat 0, F64.ofRat 0⟩, ⟨F64.ofRat 3, F64.ofRat 5, F64.ofRat 7⟩]
    (∃ b, BoundingBox3D.fromIterator pc = .ok b) ∧
    (compress 64 pc).toOption.isNone = true ∧ (compress 8 pc).toOption.isSome = true := by
  refine ⟨⟨⟨⟨F64.ofRat 0, F64.ofRat 0, F64.ofRat 0⟩, ⟨F64.ofRat 3, F64.ofRat 5, F64.ofRat 7⟩⟩, by decide +kernel⟩, ?_⟩
  decide +kernel

/-- the hypotheses of `c42_error_partial` are met -/
example : ∃ b, BoundingBox3D.fromIterator ([⟨0, 0, 0⟩, ⟨1, 2, 3⟩, ⟨3, 5, 7⟩] : List (Point3D ℝ)) = .ok b := by
  refine ⟨⟨⟨0, 0, 0⟩, ⟨3, 5, 7⟩⟩, (fromIterator_real_3d _ _).2 ⟨?_, ?_, ?_⟩⟩
  · simp [Spec.forall_fin3]
  · simp [Spec.forall_fin3]; norm_num
  · simp [Spec.forall_fin3]

end CompressedPointCloud3D

/-- `c42_no_box`: a flat cloud -/
example : BoundingBox3D.fromIterator [(⟨.ofRat 0, .ofRat 5, .ofRat 1⟩ : Point3D F64), ⟨.ofRat 1, .ofRat 5, .ofRat 2⟩] =
    .error .MinMaxEqual := by decide +kernel

end R3D
