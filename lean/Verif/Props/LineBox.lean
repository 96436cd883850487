import Verif.Model.Intersect
import Verif.Props.AABBTree
import Verif.Lemmas.F64
/-!
C48: line against box; C47: closest intersecting element.
-/
namespace R3D
open Scalar Spec LawfulScalar

/-- the point of the line at parameter `t` is in the closed box -/
def Spec.LineInBox (anchor dir : Point3D ℝ) (b : BoundingBox3D ℝ) (t : ℝ) : Prop :=
  ∀ d, at3 b.min d ≤ at3 anchor d + t * at3 dir d ∧ at3 anchor d + t * at3 dir d ≤ at3 b.max d

/-- `t` is the parameter at which the line enters the box -/
def Spec.EntersAt (anchor dir : Point3D ℝ) (b : BoundingBox3D ℝ) (t : ℝ) : Prop :=
  LineInBox anchor dir b t ∧ ∀ u, LineInBox anchor dir b u → t ≤ u

theorem slab_real {lo hi a d : ℝ} (h : lo ≤ hi) (hd : d ≠ 0) (t : ℝ) :
    (lo ≤ a + t * d ∧ a + t * d ≤ hi) ↔
      (AABBTree3D.slab lo hi a (1 / d)).1 ≤ t ∧ t ≤ (AABBTree3D.slab lo hi a (1 / d)).2 := by
  simp only [AABBTree3D.slab, min64_real, max64_real, mul_one_div]
  rcases lt_or_gt_of_ne hd with hd | hd
  · have e : (hi - a) / d ≤ (lo - a) / d := div_le_div_of_nonpos_of_le hd.le (by linarith)
    rw [min_eq_right e, max_eq_left e, div_le_iff_of_neg hd, le_div_iff_of_neg hd]
    constructor <;> intro h <;> constructor <;> linarith [h.1, h.2]
  · have e : (lo - a) / d ≤ (hi - a) / d := div_le_div_of_nonneg_right (by linarith) hd.le
    rw [min_eq_left e, max_eq_right e, div_le_iff₀ hd, le_div_iff₀ hd]
    constructor <;> intro h <;> constructor <;> linarith [h.1, h.2]

/-- C48, exact arithmetic, all direction components nonzero: the test succeeds exactly when the half line
starting at the anchor hits the closed box, and the returned point is the point where the whole line
enters the box. Missing for the full statement: zero direction components, where the code computes with
infinities and NaN; there it is false (`c48_missed`, `c48_phantom`) unless the anchor avoids the face
planes of the box (`c48_axis_float_partial`). -/
theorem c48_line_box_partial (anchor dir : Point3D ℝ) (b : BoundingBox3D ℝ) (hb : (box3 b).Valid)
    (hd : ∀ d, at3 dir d ≠ 0) :
    (∀ p, AABBTree3D.lineIntersection anchor dir b = some p →
      ∃ t, EntersAt anchor dir b t ∧ ∀ d, at3 p d = at3 anchor d + t * at3 dir d) ∧
    ((∃ p, AABBTree3D.lineIntersection anchor dir b = some p) ↔
      ∃ t, 0 ≤ t ∧ LineInBox anchor dir b t) := by
  rw [valid_real_3d] at hb
  rw [forall_fin3] at hd
  simp only [at3_zero, at3_one, at3_two] at hd
  have key : ∀ t, LineInBox anchor dir b t ↔
      max (max (AABBTree3D.slab b.min.x b.max.x anchor.x (1 / dir.x)).1 (AABBTree3D.slab b.min.y b.max.y anchor.y (1 / dir.y)).1)
        (AABBTree3D.slab b.min.z b.max.z anchor.z (1 / dir.z)).1 ≤ t ∧
      t ≤ min (min (AABBTree3D.slab b.min.x b.max.x anchor.x (1 / dir.x)).2 (AABBTree3D.slab b.min.y b.max.y anchor.y (1 / dir.y)).2)
        (AABBTree3D.slab b.min.z b.max.z anchor.z (1 / dir.z)).2 := by
    intro t
    rw [LineInBox, forall_fin3]
    simp only [at3_zero, at3_one, at3_two]
    rw [slab_real hb.1.le hd.1, slab_real hb.2.1.le hd.2.1, slab_real hb.2.2.le hd.2.2]
    simp only [max_le_iff, le_min_iff]
    tauto
  simp only [AABBTree3D.lineIntersection, min64_real, max64_real, Real.scalar_le, Real.scalar_lit,
    Real.scalar_zero, Rat.cast_one]
  generalize max (max (AABBTree3D.slab b.min.x b.max.x anchor.x (1 / dir.x)).1 (AABBTree3D.slab b.min.y b.max.y anchor.y (1 / dir.y)).1)
        (AABBTree3D.slab b.min.z b.max.z anchor.z (1 / dir.z)).1 = tmin at *
  generalize min (min (AABBTree3D.slab b.min.x b.max.x anchor.x (1 / dir.x)).2 (AABBTree3D.slab b.min.y b.max.y anchor.y (1 / dir.y)).2)
        (AABBTree3D.slab b.min.z b.max.z anchor.z (1 / dir.z)).2 = tmax at *
  simp only [Bool.and_eq_true, decide_eq_true_eq]
  by_cases hc : tmin ≤ tmax ∧ 0 ≤ tmax
  · rw [if_pos hc]
    refine ⟨fun p hp => ⟨tmin, ⟨(key _).2 ⟨le_refl _, hc.1⟩, fun u hu => ((key u).1 hu).1⟩, ?_⟩,
      ⟨fun _ => ⟨tmax, hc.2, (key _).2 ⟨hc.1, le_refl _⟩⟩, fun _ => ⟨_, rfl⟩⟩⟩
    rw [Option.some.injEq] at hp
    subst hp
    rw [forall_fin3]
    exact ⟨rfl, rfl, rfl⟩
  · rw [if_neg hc]
    refine ⟨fun p hp => by simp at hp, ⟨fun ⟨p, hp⟩ => by simp at hp, ?_⟩⟩
    rintro ⟨t, ht, hm⟩
    have := (key t).1 hm
    exact absurd ⟨this.1.trans this.2, ht.trans this.2⟩ hc

/-- the entry point of a half line that starts outside the box -/
example : EntersAt ⟨-1, -1, -1⟩ ⟨1, 1, 2⟩ ⟨⟨0, 0, 0⟩, ⟨2, 2, 4⟩⟩ 1 := by
  constructor
  · rw [LineInBox, forall_fin3]; norm_num
  · intro u hu
    have := (hu 0).1
    norm_num at this
    linarith

/-! ### binary64: lines parallel to an axis -/

namespace F64

theorem rnd_pos {q : ℚ} {n : ℤ} (hn : 0 < n) (hq : q = n * (2:ℚ) ^ (-1074 : ℤ)) : 0 < rnd q := by
  have h1 : Dyad ((2:ℚ) ^ (-1074 : ℤ)) := ⟨1, -1074, by norm_num, le_refl _, by norm_num⟩
  have h2 : (2:ℚ) ^ (-1074 : ℤ) ≤ q := by
    rw [hq]
    have : (1:ℚ) ≤ n := by exact_mod_cast hn
    have h0 := two_zpow_pos (-1074)
    nlinarith
  have := rnd_mono h2
  rw [rnd_exact h1] at this
  exact (two_zpow_pos _).trans_le this

theorem dyad_grid {x : ℚ} (h : Dyad x) : ∃ n : ℤ, x = n * (2:ℚ) ^ (-1074 : ℤ) := by
  obtain ⟨m, e, -, he, rfl⟩ := h
  obtain ⟨k, rfl⟩ : ∃ k : ℕ, e = k + (-1074) := ⟨(e + 1074).toNat, by omega⟩
  refine ⟨m * 2 ^ k, ?_⟩
  rw [zpow_add₀ two_ne_zero, zpow_natCast]
  push_cast
  ring

theorem rep_grid {s : Bool} {m : ℚ} (h : Rep (.fin s m)) : ∃ n : ℤ, val s m = n * (2:ℚ) ^ (-1074 : ℤ) := by
  obtain ⟨n, hn⟩ := dyad_grid h.2.2
  cases s
  · exact ⟨n, hn⟩
  · exact ⟨-n, by simp [val, hn]⟩

/-- a difference of different binary64 numbers does not vanish -/
theorem sub_pos_of_lt {s t : Bool} {m n : ℚ} (h1 : Rep (.fin s m)) (h2 : Rep (.fin t n))
    (h : val t n < val s m) :
    F64.sub (.fin s m) (.fin t n) = .inf false ∨ ∃ q, 0 < q ∧ F64.sub (.fin s m) (.fin t n) = .fin false q := by
  obtain ⟨i, hi⟩ := rep_grid h1
  obtain ⟨j, hj⟩ := rep_grid h2
  have hd : val s m - val t n = ((i - j : ℤ) : ℚ) * (2:ℚ) ^ (-1074 : ℤ) := by rw [hi, hj]; push_cast; ring
  have hpos : 0 < i - j := by
    have : (0:ℚ) < ((i - j : ℤ) : ℚ) * (2:ℚ) ^ (-1074 : ℤ) := by rw [← hd]; linarith
    have := pos_of_mul_pos_left this (two_zpow_pos _).le
    exact_mod_cast this
  simp only [F64.sub, F64.neg, F64.add]
  rw [val_neg, ← sub_eq_add_neg, if_neg (by linarith), ofRat, if_neg (by linarith), round_eq]
  split_ifs with hc
  · exact .inl rfl
  · exact .inr ⟨_, rnd_pos hpos hd, rfl⟩

theorem sub_neg_of_lt {s t : Bool} {m n : ℚ} (h1 : Rep (.fin s m)) (h2 : Rep (.fin t n))
    (h : val s m < val t n) :
    F64.sub (.fin s m) (.fin t n) = .inf true ∨ ∃ q, 0 < q ∧ F64.sub (.fin s m) (.fin t n) = .fin true q := by
  obtain ⟨i, hi⟩ := rep_grid h1
  obtain ⟨j, hj⟩ := rep_grid h2
  have hd : -(val s m - val t n) = ((j - i : ℤ) : ℚ) * (2:ℚ) ^ (-1074 : ℤ) := by rw [hi, hj]; push_cast; ring
  have hpos : 0 < j - i := by
    have : (0:ℚ) < ((j - i : ℤ) : ℚ) * (2:ℚ) ^ (-1074 : ℤ) := by rw [← hd]; linarith
    have := pos_of_mul_pos_left this (two_zpow_pos _).le
    exact_mod_cast this
  simp only [F64.sub, F64.neg, F64.add]
  rw [val_neg, ← sub_eq_add_neg, if_neg (by linarith), ofRat, if_pos (by linarith), round_eq]
  split_ifs with hc
  · exact .inl rfl
  · exact .inr ⟨_, rnd_pos hpos hd, rfl⟩

/-- a finite binary64 number of magnitude below `2^1022` -/
def Moderate (x : F64) : Prop := ∃ s m, x = .fin s m ∧ Rep x ∧ m < (2:ℚ) ^ (1022 : ℤ)

/-- its value -/
noncomputable def real : F64 → ℝ
  | .fin s m => ((val s m : ℚ) : ℝ)
  | _ => 0

theorem rnd_lt_max {q : ℚ} (h : q ≤ (2:ℚ) ^ (1023 : ℤ)) : rnd q < (2:ℚ) ^ (1024 : ℤ) := by
  have h1 : Dyad ((2:ℚ) ^ (1023 : ℤ)) := ⟨1, 1023, by norm_num, by norm_num, by norm_num⟩
  have := rnd_mono h
  rw [rnd_exact h1] at this
  exact this.trans_lt (by
    apply zpow_lt_zpow_right₀ one_lt_two; norm_num)

/-- a difference of moderate numbers is finite and has the sign of the exact difference -/
theorem sub_moderate {x y : F64} (hx : Moderate x) (hy : Moderate y) :
    ∃ s m, F64.sub x y = .fin s m ∧ Rep (.fin s m) ∧
      (0 ≤ val s m ↔ real y ≤ real x) ∧ (val s m ≤ 0 ↔ real x ≤ real y) := by
  obtain ⟨s, m, rfl, h1, b1⟩ := hx
  obtain ⟨t, n, rfl, h2, b2⟩ := hy
  have hrep := sub_rep (.fin s m) (.fin t n)
  have hfin : F64.sub (.fin s m) (.fin t n) ≠ .inf true ∧ F64.sub (.fin s m) (.fin t n) ≠ .inf false := by
    have e2 : (2:ℚ) ^ (1023 : ℤ) = 2 ^ (1022 : ℤ) + 2 ^ (1022 : ℤ) := by
      rw [show (1023 : ℤ) = 1022 + 1 by norm_num, zpow_add₀ two_ne_zero]; ring
    have a1 : |val s m| < (2:ℚ) ^ (1022 : ℤ) := by
      have : |val s m| = m := by cases s <;> simp [val, abs_of_nonneg h1.1]
      rw [this]; exact b1
    have a2 : |val t n| < (2:ℚ) ^ (1022 : ℤ) := by
      have : |val t n| = n := by cases t <;> simp [val, abs_of_nonneg h2.1]
      rw [this]; exact b2
    rw [abs_lt] at a1 a2
    simp only [F64.sub, F64.neg, F64.add]
    rw [val_neg]
    split_ifs with h0
    · simp
    · unfold ofRat
      split_ifs with h3
      · rw [round_eq, if_neg (not_le.2 (rnd_lt_max (by rw [e2]; linarith [a1.1, a2.2])))]
        simp
      · rw [round_eq, if_neg (not_le.2 (rnd_lt_max (by rw [e2]; linarith [a1.2, a2.1])))]
        simp
  have hcast : ∀ p q : ℚ, ((p : ℝ) ≤ q) ↔ p ≤ q := fun p q => Rat.cast_le
  rcases lt_trichotomy (val s m) (val t n) with h | h | h
  · rcases sub_neg_of_lt h1 h2 h with e | ⟨q, hq, e⟩
    · exact absurd e hfin.1
    · rw [e] at hrep ⊢
      refine ⟨true, q, rfl, hrep, ?_, ?_⟩
      · simp only [real, hcast, val, if_true]
        exact ⟨fun h' => by linarith, fun h' => absurd h (not_lt.2 h')⟩
      · simp only [real, hcast]
        rw [show val true q = -q from rfl]
        exact ⟨fun _ => h.le, fun _ => by linarith⟩
  · refine ⟨s && !t, 0, ?_, fin_zero_rep _, ?_, ?_⟩
    · simp only [F64.sub, F64.neg, F64.add]
      rw [val_neg, ← sub_eq_add_neg, if_pos (by linarith)]
    · simp [real, h]; cases s <;> cases t <;> simp [val]
    · simp [real, h]; cases s <;> cases t <;> simp [val]
  · rcases sub_pos_of_lt h1 h2 h with e | ⟨q, hq, e⟩
    · exact absurd e hfin.2
    · rw [e] at hrep ⊢
      refine ⟨false, q, rfl, hrep, ?_, ?_⟩
      · simp only [real, hcast]
        rw [show val false q = q from rfl]
        exact ⟨fun _ => h.le, fun _ => hq.le⟩
      · simp only [real, hcast]
        rw [show val false q = q from rfl]
        exact ⟨fun h' => by linarith, fun h' => absurd h (not_lt.2 h')⟩

end F64

section
variable {α : Type} [Scalar α] [LawfulScalar α]

theorem min64_key {a b : α} (ha : ok a) (hb : ok b) :
    ok (AABBTree3D.min64 a b) ∧ key (AABBTree3D.min64 a b) = min (key a) (key b) := by
  unfold AABBTree3D.min64
  by_cases h : key a < key b
  · rw [if_pos ((lt_of_ok ha hb).2 h)]; exact ⟨ha, (min_eq_left h.le).symm⟩
  · rw [if_neg (fun e => h ((lt_of_ok ha hb).1 e))]; exact ⟨hb, (min_eq_right (not_lt.1 h)).symm⟩

theorem max64_key {a b : α} (ha : ok a) (hb : ok b) :
    ok (AABBTree3D.max64 a b) ∧ key (AABBTree3D.max64 a b) = max (key a) (key b) := by
  unfold AABBTree3D.max64
  by_cases h : key b < key a
  · rw [if_pos ((lt_of_ok hb ha).2 h)]; exact ⟨ha, (max_eq_left h.le).symm⟩
  · rw [if_neg (fun e => h ((lt_of_ok hb ha).1 e))]; exact ⟨hb, (max_eq_right (not_lt.1 h)).symm⟩

/-- the slab test on parameters that are not NaN, through their numerical values -/
theorem lineIntersection_isSome (anchor dir : Point3D α) (b : BoundingBox3D α)
    (lo hi : Fin 3 → EReal)
    (h : ∀ d, ok (AABBTree3D.slab (at3 b.min d) (at3 b.max d) (at3 anchor d) (lit 1 / at3 dir d)).1 ∧
      ok (AABBTree3D.slab (at3 b.min d) (at3 b.max d) (at3 anchor d) (lit 1 / at3 dir d)).2 ∧
      key (AABBTree3D.slab (at3 b.min d) (at3 b.max d) (at3 anchor d) (lit 1 / at3 dir d)).1 = lo d ∧
      key (AABBTree3D.slab (at3 b.min d) (at3 b.max d) (at3 anchor d) (lit 1 / at3 dir d)).2 = hi d) :
    (AABBTree3D.lineIntersection anchor dir b).isSome = true ↔
      (∀ d e, lo d ≤ hi e) ∧ ∀ e, 0 ≤ hi e := by
  have h0 := h 0
  have h1 := h 1
  have h2 := h 2
  simp only [at3_zero, at3_one, at3_two] at h0 h1 h2
  unfold AABBTree3D.lineIntersection
  generalize AABBTree3D.slab b.min.x b.max.x anchor.x (lit 1 / dir.x) = s0 at *
  generalize AABBTree3D.slab b.min.y b.max.y anchor.y (lit 1 / dir.y) = s1 at *
  generalize AABBTree3D.slab b.min.z b.max.z anchor.z (lit 1 / dir.z) = s2 at *
  have m1 := max64_key h0.1 h1.1
  have m2 := max64_key m1.1 h2.1
  have n1 := min64_key h0.2.1 h1.2.1
  have n2 := min64_key n1.1 h2.2.1
  simp only
  have e1 := le_of_ok m2.1 n2.1
  have e2 := le_of_ok (ok_zero (α := α)) n2.1
  rw [m2.2, m1.2, n2.2, n1.2, h0.2.2.1, h0.2.2.2, h1.2.2.1, h1.2.2.2, h2.2.2.1, h2.2.2.2] at e1
  rw [n2.2, n1.2, h0.2.2.2, h1.2.2.2, h2.2.2.2, key_zero] at e2
  rw [apply_ite Option.isSome]
  simp only [Option.isSome_some, Option.isSome_none, Bool.if_false_right, Bool.and_true, Bool.and_eq_true, decide_eq_true_eq]
  rw [e1, e2]
  simp only [forall_fin3, max_le_iff, le_min_iff]
  tauto
end

/-- a slab whose direction component is a zero, anchor not on its two faces -/
theorem slab_zero {lo hi a : F64} {s : Bool} (h1 : F64.Moderate lo) (h2 : F64.Moderate hi) (h3 : F64.Moderate a)
    (hv : F64.real lo < F64.real hi) (n1 : F64.real a ≠ F64.real lo) (n2 : F64.real a ≠ F64.real hi) :
    ∃ l u : EReal, (ok (AABBTree3D.slab lo hi a (lit 1 / (.fin s 0 : F64))).1 ∧
      ok (AABBTree3D.slab lo hi a (lit 1 / (.fin s 0 : F64))).2 ∧
      key (AABBTree3D.slab lo hi a (lit 1 / (.fin s 0 : F64))).1 = l ∧
      key (AABBTree3D.slab lo hi a (lit 1 / (.fin s 0 : F64))).2 = u) ∧
      ((F64.real lo ≤ F64.real a ∧ F64.real a ≤ F64.real hi ∧ l = ⊥ ∧ u = ⊤) ∨
        (¬(F64.real lo ≤ F64.real a ∧ F64.real a ≤ F64.real hi) ∧ ((l = ⊤ ∧ u = ⊤) ∨ (l = ⊥ ∧ u = ⊥)))) := by
  have hinv : (lit 1 / (.fin s 0 : F64) : F64) = .inf s := by cases s <;> decide +kernel
  rw [hinv]
  have hsub : ∀ x y : F64, x - y = F64.sub x y := fun _ _ => rfl
  have hmul : ∀ x y : F64, x * y = F64.mul x y := fun _ _ => rfl
  have key' : ∀ x, F64.Moderate x → F64.real a ≠ F64.real x →
      (F64.real x < F64.real a ∧ (x - a) * (.inf s : F64) = .inf (!s)) ∨
      (F64.real a < F64.real x ∧ (x - a) * (.inf s : F64) = .inf s) := by
    intro x hx hne
    obtain ⟨t, m, e, hr, c1, c2⟩ := F64.sub_moderate hx h3
    rw [hsub, e, hmul]
    have hm0 : m ≠ 0 := by
      rintro rfl
      have e0 : F64.val t 0 = 0 := by cases t <;> simp [F64.val]
      rw [e0] at c1 c2
      exact hne (le_antisymm (c1.1 le_rfl) (c2.1 le_rfl))
    have hm1 : 0 < m := lt_of_le_of_ne hr.1 hm0.symm
    simp only [F64.mul, if_neg hm0]
    cases t with
    | true =>
      left
      refine ⟨?_, by simp⟩
      by_contra hc
      have : 0 ≤ F64.val true m := c1.2 (not_lt.1 hc)
      simp [F64.val] at this
      linarith
    | false =>
      right
      refine ⟨?_, by simp⟩
      by_contra hc
      have : F64.val false m ≤ 0 := c2.2 (not_lt.1 hc)
      simp [F64.val] at this
      linarith
  have okinf : ∀ t, ok (.inf t : F64) := fun t => by simp [ok, F64.ok]
  have keyinf : ∀ t, key (.inf t : F64) = if t then ⊥ else ⊤ := fun t => rfl
  simp only [AABBTree3D.slab]
  rcases key' lo h1 n1 with ⟨g1, e1⟩ | ⟨g1, e1⟩ <;> rcases key' hi h2 n2 with ⟨g2, e2⟩ | ⟨g2, e2⟩ <;> rw [e1, e2]
  · have a1 := min64_key (okinf (!s)) (okinf (!s))
    have a2 := max64_key (okinf (!s)) (okinf (!s))
    refine ⟨_, _, ⟨a1.1, a2.1, rfl, rfl⟩, .inr ⟨fun h => absurd g2 (not_lt.2 h.2), ?_⟩⟩
    rw [a1.2, a2.2, keyinf]
    cases s <;> simp
  · have a1 := min64_key (okinf (!s)) (okinf s)
    have a2 := max64_key (okinf (!s)) (okinf s)
    refine ⟨_, _, ⟨a1.1, a2.1, rfl, rfl⟩, .inl ⟨g1.le, g2.le, ?_⟩⟩
    rw [a1.2, a2.2, keyinf, keyinf]
    cases s <;> simp
  · exact absurd (g1.trans (hv.trans g2)) (lt_irrefl _)
  · have a1 := min64_key (okinf s) (okinf s)
    have a2 := max64_key (okinf s) (okinf s)
    refine ⟨_, _, ⟨a1.1, a2.1, rfl, rfl⟩, .inr ⟨fun h => absurd g1 (not_lt.2 h.1), ?_⟩⟩
    rw [a1.2, a2.2, keyinf]
    cases s <;> simp

/-- a slab whose direction component is plus or minus one -/
theorem slab_one {lo hi a : F64} {s : Bool} (h1 : F64.Moderate lo) (h2 : F64.Moderate hi) (h3 : F64.Moderate a)
    (hv : F64.real lo < F64.real hi) :
    ∃ l u : ℝ, (ok (AABBTree3D.slab lo hi a (lit 1 / (.fin s 1 : F64))).1 ∧
      ok (AABBTree3D.slab lo hi a (lit 1 / (.fin s 1 : F64))).2 ∧
      key (AABBTree3D.slab lo hi a (lit 1 / (.fin s 1 : F64))).1 = (l : EReal) ∧
      key (AABBTree3D.slab lo hi a (lit 1 / (.fin s 1 : F64))).2 = (u : EReal)) ∧ l ≤ u ∧
      (0 ≤ u ↔ ∃ t : ℝ, 0 ≤ t ∧ F64.real lo ≤ F64.real a + t * F64.real (.fin s 1) ∧
        F64.real a + t * F64.real (.fin s 1) ≤ F64.real hi) := by
  have hinv : (lit 1 / (.fin s 1 : F64) : F64) = .fin s 1 := by cases s <;> decide +kernel
  rw [hinv]
  have hsub : ∀ x y : F64, x - y = F64.sub x y := fun _ _ => rfl
  have hmul : ∀ x y : F64, x * y = F64.mul x y := fun _ _ => rfl
  have okfin : ∀ t m, ok (.fin t m : F64) := fun t m => by simp [ok, F64.ok]
  have keyfin : ∀ t m, key (.fin t m : F64) = (((F64.val t m : ℚ) : ℝ) : EReal) := fun t m => rfl
  obtain ⟨t1, m1, e1, r1, c1, c1'⟩ := F64.sub_moderate h1 h3
  obtain ⟨t2, m2, e2, r2, c2, c2'⟩ := F64.sub_moderate h2 h3
  have mono : F64.val t1 m1 ≤ F64.val t2 m2 := by
    obtain ⟨sl, ml, rfl, hl, -⟩ := h1
    obtain ⟨sh, mh, rfl, hh, -⟩ := h2
    obtain ⟨sa, ma, rfl, ha, -⟩ := h3
    have k1 := F64.key_sub sl sa ml ma
    have k2 := F64.key_sub sh sa mh ma
    rw [e1] at k1
    rw [e2] at k2
    have : F64.rkey (F64.val sl ml - F64.val sa ma) ≤ F64.rkey (F64.val sh mh - F64.val sa ma) := by
      apply F64.rkey_mono
      have : F64.val sl ml < F64.val sh mh := by
        simpa [F64.real] using hv
      linarith
    rw [← k1, ← k2] at this
    simp only [F64.key, EReal.coe_le_coe_iff, Rat.cast_le] at this
    exact this
  have mulone : ∀ t m, F64.Rep (.fin t m) → F64.mul (.fin t m) (.fin s 1) = .fin (xor t s) m := by
    intro t m h
    simp only [F64.mul, mul_one]
    exact F64.round_exact _ h
  simp only [AABBTree3D.slab, hsub, hmul, e1, e2, mulone _ _ r1, mulone _ _ r2]
  have a1 := min64_key (okfin (xor t1 s) m1) (okfin (xor t2 s) m2)
  have a2 := max64_key (okfin (xor t1 s) m1) (okfin (xor t2 s) m2)
  have xv : ∀ t m, F64.val (xor t s) m = if s then -F64.val t m else F64.val t m := by
    intro t m; cases t <;> cases s <;> simp [F64.val]
  have hm' : ((F64.val t1 m1 : ℚ) : ℝ) ≤ (F64.val t2 m2 : ℚ) := Rat.cast_le.2 mono
  cases s with
  | false =>
    refine ⟨(F64.val t1 m1 : ℚ), (F64.val t2 m2 : ℚ), ⟨a1.1, a2.1, ?_, ?_⟩, hm', ?_⟩
    · rw [a1.2, keyfin, keyfin, xv, xv]
      exact min_eq_left (by simpa using hm')
    · rw [a2.2, keyfin, keyfin, xv, xv]
      exact max_eq_right (by simpa using hm')
    · rw [show ((0:ℝ) ≤ ((F64.val t2 m2 : ℚ) : ℝ)) ↔ 0 ≤ F64.val t2 m2 from Rat.cast_nonneg, c2]
      have hr1 : F64.real (.fin false 1) = 1 := by simp [F64.real, F64.val]
      simp only [hr1, mul_one]
      constructor
      · intro h
        refine ⟨F64.real hi - F64.real a, by linarith, by linarith, by linarith⟩
      · rintro ⟨t, ht, -, hh⟩
        linarith
  | true =>
    have hm2 : -((F64.val t2 m2 : ℚ) : ℝ) ≤ -((F64.val t1 m1 : ℚ) : ℝ) := by linarith
    refine ⟨-(F64.val t2 m2 : ℚ), -(F64.val t1 m1 : ℚ), ⟨a1.1, a2.1, ?_, ?_⟩, hm2, ?_⟩
    · rw [a1.2, keyfin, keyfin, xv, xv]
      simp only [if_true, Rat.cast_neg]
      exact min_eq_right (by exact_mod_cast hm2)
    · rw [a2.2, keyfin, keyfin, xv, xv]
      simp only [if_true, Rat.cast_neg]
      exact max_eq_left (by exact_mod_cast hm2)
    · have : ((0:ℝ) ≤ -((F64.val t1 m1 : ℚ) : ℝ)) ↔ F64.val t1 m1 ≤ 0 := by
        rw [neg_nonneg]; exact Rat.cast_nonpos
      rw [this, c1']
      have hr1 : F64.real (.fin true 1) = -1 := by simp [F64.real, F64.val]
      simp only [hr1, mul_neg, mul_one]
      constructor
      · intro h
        refine ⟨F64.real a - F64.real lo, by linarith, by linarith, by linarith⟩
      · rintro ⟨t, ht, hl, -⟩
        linarith

/-- real point of a binary64 point -/
noncomputable def Spec.realPt (p : Point3D F64) : Point3D ℝ := ⟨p.x.real, p.y.real, p.z.real⟩

theorem Spec.at3_realPt (p : Point3D F64) (d : Fin 3) : at3 (realPt p) d = (at3 p d).real := by
  revert d; rw [forall_fin3]; exact ⟨rfl, rfl, rfl⟩

/-- C48 in binary64, lines parallel to an axis `k` (either orientation, either sign of the zeros),
coordinates of magnitude below `2^1022`: the test is exact, provided the anchor lies on none of the face
planes parallel to the line. Missing for the full statement: anchors on those planes, where it is false
(`c48_missed`, `c48_phantom`), and the rounding of other directions. -/
theorem c48_axis_float_partial (anchor dir : Point3D F64) (b : BoundingBox3D F64) (k : Fin 3)
    (hm : ∀ d, F64.Moderate (at3 anchor d) ∧ F64.Moderate (at3 b.min d) ∧ F64.Moderate (at3 b.max d))
    (hv : ∀ d, (at3 b.min d).real < (at3 b.max d).real)
    (hk : ∃ s, at3 dir k = .fin s 1) (hz : ∀ d, d ≠ k → ∃ s, at3 dir d = .fin s 0)
    (hoff : ∀ d, d ≠ k → (at3 anchor d).real ≠ (at3 b.min d).real ∧ (at3 anchor d).real ≠ (at3 b.max d).real) :
    (AABBTree3D.lineIntersection anchor dir b).isSome = true ↔
      ∃ t : ℝ, 0 ≤ t ∧ LineInBox (realPt anchor) (realPt dir) ⟨realPt b.min, realPt b.max⟩ t := by
  obtain ⟨sk, hsk⟩ := hk
  obtain ⟨lk, uk, hk1, hk2, hk3⟩ := slab_one (s := sk) (hm k).2.1 (hm k).2.2 (hm k).1 (hv k)
  rw [← hsk] at hk1 hk3
  have hother : ∀ d, ∃ l u : EReal, (ok (AABBTree3D.slab (at3 b.min d) (at3 b.max d) (at3 anchor d) (lit 1 / at3 dir d)).1 ∧
      ok (AABBTree3D.slab (at3 b.min d) (at3 b.max d) (at3 anchor d) (lit 1 / at3 dir d)).2 ∧
      key (AABBTree3D.slab (at3 b.min d) (at3 b.max d) (at3 anchor d) (lit 1 / at3 dir d)).1 = l ∧
      key (AABBTree3D.slab (at3 b.min d) (at3 b.max d) (at3 anchor d) (lit 1 / at3 dir d)).2 = u) ∧
      (d = k → l = lk ∧ u = uk) ∧
      (d ≠ k → (((at3 b.min d).real ≤ (at3 anchor d).real ∧ (at3 anchor d).real ≤ (at3 b.max d).real ∧ l = ⊥ ∧ u = ⊤) ∨
        (¬((at3 b.min d).real ≤ (at3 anchor d).real ∧ (at3 anchor d).real ≤ (at3 b.max d).real) ∧ ((l = ⊤ ∧ u = ⊤) ∨ (l = ⊥ ∧ u = ⊥))))) := by
    intro d
    by_cases hdk : d = k
    · subst hdk
      exact ⟨lk, uk, hk1, fun _ => ⟨rfl, rfl⟩, fun h => absurd rfl h⟩
    · obtain ⟨s, hs⟩ := hz d hdk
      obtain ⟨l, u, h1, h2⟩ := slab_zero (s := s) (hm d).2.1 (hm d).2.2 (hm d).1 (hv d) (hoff d hdk).1 (hoff d hdk).2
      rw [hs]
      exact ⟨l, u, h1, fun e => absurd e hdk, fun _ => h2⟩
  choose l u h1 h2 h3 using hother
  rw [lineIntersection_isSome anchor dir b l u h1]
  have hspec : (∃ t : ℝ, 0 ≤ t ∧ LineInBox (realPt anchor) (realPt dir) ⟨realPt b.min, realPt b.max⟩ t) ↔
      0 ≤ uk ∧ ∀ d, d ≠ k → (at3 b.min d).real ≤ (at3 anchor d).real ∧ (at3 anchor d).real ≤ (at3 b.max d).real := by
    rw [hk3]
    simp only [LineInBox, at3_realPt]
    have hzero : ∀ d, d ≠ k → (at3 dir d).real = 0 := by
      intro d hdk
      obtain ⟨s, hs⟩ := hz d hdk
      rw [hs]; cases s <;> simp [F64.real, F64.val]
    constructor
    · rintro ⟨t, ht, h⟩
      refine ⟨⟨t, ht, h k⟩, fun d hdk => ?_⟩
      have := h d
      rw [hzero d hdk] at this
      simpa using this
    · rintro ⟨⟨t, ht, hkk⟩, h⟩
      refine ⟨t, ht, fun d => ?_⟩
      by_cases hdk : d = k
      · rw [hdk]; exact hkk
      · rw [hzero d hdk]
        simpa using h d hdk
  rw [hspec]
  obtain ⟨elk, euk⟩ := h2 k rfl
  constructor
  · rintro ⟨hall, hpos⟩
    refine ⟨?_, fun d hdk => ?_⟩
    · have := hpos k
      rw [euk] at this
      exact_mod_cast this
    · rcases h3 d hdk with ⟨g1, g2, -⟩ | ⟨-, ⟨g, -⟩ | ⟨-, g⟩⟩
      · exact ⟨g1, g2⟩
      · have := hall d k
        rw [g, euk] at this
        exact absurd this (not_le.2 (EReal.coe_lt_top _))
      · have := hpos d
        rw [g] at this
        exact absurd this (not_le.2 EReal.bot_lt_zero)
  · rintro ⟨hu, hin⟩
    have hlo : ∀ d, l d ≤ lk := by
      intro d
      by_cases hdk : d = k
      · rw [hdk, elk]
      · rcases h3 d hdk with ⟨-, -, g, -⟩ | ⟨g, -⟩
        · rw [g]; exact bot_le
        · exact absurd (hin d hdk) g
    have hhi : ∀ d, (uk : EReal) ≤ u d := by
      intro d
      by_cases hdk : d = k
      · rw [hdk, euk]
      · rcases h3 d hdk with ⟨-, -, -, g⟩ | ⟨g, -⟩
        · rw [g]; exact le_top
        · exact absurd (hin d hdk) g
    have hlu : (lk : EReal) ≤ uk := by exact_mod_cast hk2
    refine ⟨fun d e => (hlo d).trans (hlu.trans (hhi e)), fun e => le_trans ?_ (hhi e)⟩
    exact_mod_cast hu

/-- a line along the x axis through the unit box -/
example : ∃ (anchor dir : Point3D F64) (b : BoundingBox3D F64),
    anchor = ⟨f (-1), f (1/2), f (1/2)⟩ ∧ dir = Norm3D.normX ∧ b = ⟨⟨f 0, f 0, f 0⟩, ⟨f 1, f 1, f 1⟩⟩ ∧
    (∀ d, F64.Moderate (at3 anchor d) ∧ F64.Moderate (at3 b.min d) ∧ F64.Moderate (at3 b.max d)) ∧
    (∀ d, (at3 b.min d).real < (at3 b.max d).real) ∧ (∃ s, at3 dir 0 = .fin s 1) ∧
    (∀ d, d ≠ 0 → ∃ s, at3 dir d = .fin s 0) ∧
    ∀ d, d ≠ 0 → (at3 anchor d).real ≠ (at3 b.min d).real ∧ (at3 anchor d).real ≠ (at3 b.max d).real := by
  refine ⟨_, _, _, rfl, rfl, rfl, ?_⟩
  have e0 : f 0 = .fin false 0 := by decide +kernel
  have e1 : f 1 = .fin false 1 := by decide +kernel
  have e2 : f (1/2) = .fin false (1/2) := by decide +kernel
  have e3 : f (-1) = .fin true 1 := by decide +kernel
  have l0 : (lit 0 : F64) = .fin false 0 := e0
  have l1 : (lit 1 : F64) = .fin false 1 := e1
  have m0 : F64.Moderate (f 0) := ⟨false, 0, e0, F64.ofRat_rep _, by positivity⟩
  have m1 : F64.Moderate (f 1) := ⟨false, 1, e1, F64.ofRat_rep _, one_lt_zpow₀ one_lt_two (by norm_num)⟩
  have m2 : F64.Moderate (f (1/2)) := ⟨false, 1/2, e2, F64.ofRat_rep _,
    lt_trans (by norm_num) (one_lt_zpow₀ one_lt_two (by norm_num : (0:ℤ) < 1022))⟩
  have m3 : F64.Moderate (f (-1)) := ⟨true, 1, e3, F64.ofRat_rep _, one_lt_zpow₀ one_lt_two (by norm_num)⟩
  simp only [forall_fin3, at3_zero, at3_one, at3_two, Norm3D.normX, l0, l1]
  refine ⟨⟨⟨m3, m0, m1⟩, ⟨m2, m0, m1⟩, m2, m0, m1⟩, ?_, ⟨_, rfl⟩, ⟨by simp, fun _ => ⟨_, rfl⟩, fun _ => ⟨_, rfl⟩⟩, ?_⟩
  · simp [e0, e1, F64.real, F64.val]
  · simp only [e0, e1, e2, F64.real, F64.val]; norm_num

/-- C48 violated: the half line along an edge of the closed unit box starts on its lower y face plane and
runs through the face, but is reported as a miss. -/
theorem c48_missed : ∃ (anchor dir : Point3D F64) (b : BoundingBox3D F64),
    anchor = ⟨f (-1), f 0, f (1/2)⟩ ∧ dir = Norm3D.normX ∧ b = ⟨⟨f 0, f 0, f 0⟩, ⟨f 1, f 1, f 1⟩⟩ ∧
    AABBTree3D.lineIntersection anchor dir b = none := by
  refine ⟨_, _, _, rfl, rfl, rfl, ?_⟩
  decide +kernel

/-- C48 violated: the half line starts behind the unit box and points away from it, on its upper y face
plane, but is reported as a hit, with NaN coordinates. -/
theorem c48_phantom : ∃ (anchor dir : Point3D F64) (b : BoundingBox3D F64),
    anchor = ⟨f 5, f 1, f (1/2)⟩ ∧ dir = Norm3D.normX ∧ b = ⟨⟨f 0, f 0, f 0⟩, ⟨f 1, f 1, f 1⟩⟩ ∧
    AABBTree3D.lineIntersection anchor dir b = some ⟨.inf true, .nan, .nan⟩ := by
  refine ⟨_, _, _, rfl, rfl, rfl, ?_⟩
  decide +kernel

end R3D
