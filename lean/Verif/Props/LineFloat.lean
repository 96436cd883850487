import Verif.Lemmas.F64Near
import Verif.Props.LineBox
import Verif.Props.ScaleFloat
import Verif.Props.BoxFloat
/-!
C23 and C106: lines against boxes of doubles (`BoundingBox3D` against `Line3D` in `AABBTree3D`).

`c23_line_f64_partial`: the tree reports exactly the elements whose own box passes the library's line test, rounding and overflow
included: the test is monotone in the box. Missing for all lines: anchors on a face plane of a box with a direction parallel to
this face (0 * inf = NaN, `c23_line_violated`).

`c106_line_box`: the line test itself is accurate: the box grown by M/2^50 is hit whenever a point is reported, the box shrunk by
M/2^50 is never missed, and the reported point is close to where the line enters. `c106_tree` joins both.
`c106_violated_rounding`: without the margin hits of the interior are lost.
-/
namespace R3D
open Scalar Spec F64

namespace F64

theorem key_inf (s : Bool) : F64.key (.inf s) = if s then ⊥ else ⊤ := rfl

/-- forms of a number that is not NaN -/
theorem forms {u : F64} (h : F64.ok u) (r : Rep u) : Num u ∨ ∃ s, u = .inf s := by
  cases u with
  | nan => exact absurd rfl h
  | inf s => exact .inr ⟨s, rfl⟩
  | fin s m => exact .inl (Num.mk' r)

theorem inf_mul {s : Bool} {i : F64} (hi : Num i) (h0 : toR i ≠ 0) : ∃ t, (.inf s : F64) * i = .inf t ∧ (0 < toR i → t = s) ∧ (toR i < 0 → t = !s) := by
  obtain ⟨t, n, rfl, r, hn, e⟩ := hi.form
  have hn0 : n ≠ 0 := by
    rintro rfl
    apply h0; rw [e]; simp [val]
  have hp : 0 < n := lt_of_le_of_ne r.1 hn0.symm
  have hp' : (0:ℝ) < n := by exact_mod_cast hp
  refine ⟨xor s t, ?_, ?_, ?_⟩
  · show F64.mul _ _ = _
    simp [F64.mul, hn0]
  · intro h
    rw [e] at h
    cases t
    · simp
    · simp [val] at h; linarith
  · intro h
    rw [e] at h
    cases t
    · simp [val] at h; linarith
    · simp

theorem mul_up {u v i : F64} (hu : F64.ok u) (hv : F64.ok v) (ru : Rep u) (rv : Rep v) (hi : Num i) (h0 : 0 < toR i) (h : F64.key u ≤ F64.key v) :
    F64.ok (u * i) ∧ F64.ok (v * i) ∧ F64.key (u * i) ≤ F64.key (v * i) := by
  have okn : ∀ w, F64.ok w → Rep w → F64.ok (w * i) := by
    intro w hw rw'
    rcases forms hw rw' with h1 | ⟨s, rfl⟩
    · obtain ⟨s, m, rfl, r, -, -⟩ := h1.form
      obtain ⟨t, n, rfl, r', -, -⟩ := hi.form
      show F64.ok (F64.mul _ _)
      simp only [F64.mul]
      rw [round_eq]
      split_ifs <;> exact F64.noConfusion
    · obtain ⟨t, e, -⟩ := inf_mul (s := s) hi h0.ne'
      rw [e]; exact F64.noConfusion
  refine ⟨okn u hu ru, okn v hv rv, ?_⟩
  rcases forms hu ru with h1 | ⟨s, rfl⟩
  · rcases forms hv rv with h2 | ⟨t, rfl⟩
    · rw [h1.key, h2.key, EReal.coe_le_coe_iff] at h
      exact key_mul_mono h1 hi h2 hi (mul_le_mul_of_nonneg_right h h0.le)
    · obtain ⟨t', e, e1, -⟩ := inf_mul (s := t) hi h0.ne'
      rw [e, e1 h0]
      cases t
      · simp [key_inf]
      · rw [h1.key, key_inf] at h; simp at h
  · obtain ⟨t', e, e1, -⟩ := inf_mul (s := s) hi h0.ne'
    rw [e, e1 h0]
    cases s
    · rw [key_inf] at h
      simp only [Bool.false_eq_true, if_false, top_le_iff] at h
      rcases forms hv rv with h2 | ⟨t, rfl⟩
      · rw [h2.key] at h; simp at h
      · obtain ⟨t', e, e1, -⟩ := inf_mul (s := t) hi h0.ne'
        rw [e, e1 h0, h]; simp
    · simp [key_inf]

theorem mul_down {u v i : F64} (hu : F64.ok u) (hv : F64.ok v) (ru : Rep u) (rv : Rep v) (hi : Num i) (h0 : toR i < 0) (h : F64.key u ≤ F64.key v) :
    F64.ok (u * i) ∧ F64.ok (v * i) ∧ F64.key (v * i) ≤ F64.key (u * i) := by
  have okn : ∀ w, F64.ok w → Rep w → F64.ok (w * i) := by
    intro w hw rw'
    rcases forms hw rw' with h1 | ⟨s, rfl⟩
    · obtain ⟨s, m, rfl, r, -, -⟩ := h1.form
      obtain ⟨t, n, rfl, r', -, -⟩ := hi.form
      show F64.ok (F64.mul _ _)
      simp only [F64.mul]
      rw [round_eq]
      split_ifs <;> exact F64.noConfusion
    · obtain ⟨t, e, -⟩ := inf_mul (s := s) hi h0.ne
      rw [e]; exact F64.noConfusion
  refine ⟨okn u hu ru, okn v hv rv, ?_⟩
  rcases forms hu ru with h1 | ⟨s, rfl⟩
  · rcases forms hv rv with h2 | ⟨t, rfl⟩
    · rw [h1.key, h2.key, EReal.coe_le_coe_iff] at h
      exact key_mul_mono h2 hi h1 hi (mul_le_mul_of_nonpos_right h h0.le)
    · obtain ⟨t', e, -, e1⟩ := inf_mul (s := t) hi h0.ne
      rw [e, e1 h0]
      cases t
      · simp [key_inf]
      · rw [h1.key, key_inf] at h; simp at h
  · obtain ⟨t', e, -, e1⟩ := inf_mul (s := s) hi h0.ne
    rw [e, e1 h0]
    cases s
    · rw [key_inf] at h
      simp only [Bool.false_eq_true, if_false, top_le_iff] at h
      rcases forms hv rv with h2 | ⟨t, rfl⟩
      · rw [h2.key] at h; simp at h
      · obtain ⟨t', e, -, e1⟩ := inf_mul (s := t) hi h0.ne
        rw [e, e1 h0]
        cases t <;> simp [key_inf] at h ⊢
    · simp [key_inf]

/-- the sign of a difference of doubles is right, also if it overflows -/
theorem sub_sign {x a : F64} (hx : Num x) (ha : Num a) (h : toR x ≠ toR a) :
    (toR x < toR a ∧ ((x - a) = .inf true ∨ ∃ q, 0 < q ∧ x - a = .fin true q)) ∨
    (toR a < toR x ∧ ((x - a) = .inf false ∨ ∃ q, 0 < q ∧ x - a = .fin false q)) := by
  obtain ⟨s, m, rfl, r, hm, e1⟩ := hx.form
  obtain ⟨t, n, rfl, r', hn, e2⟩ := ha.form
  rw [e1, e2] at h ⊢
  rcases lt_or_gt_of_ne h with h | h
  · refine .inl ⟨h, sub_neg_of_lt r r' (by exact_mod_cast h)⟩
  · refine .inr ⟨h, sub_pos_of_lt r r' (by exact_mod_cast h)⟩

theorem sub_ok {x a : F64} (hx : Num x) (ha : Num a) : F64.ok (x - a) := by
  obtain ⟨s, m, rfl, r, hm, e1⟩ := hx.form
  obtain ⟨t, n, rfl, r', hn, e2⟩ := ha.form
  show F64.ok (F64.sub _ _)
  simp only [F64.sub, F64.neg, F64.add, ofRat, round_eq]
  split_ifs <;> exact F64.noConfusion

theorem sub_mul_inf {x a : F64} (s : Bool) (hx : Num x) (ha : Num a) (h : toR x ≠ toR a) :
    (toR x < toR a ∧ (x - a) * (.inf s : F64) = .inf (!s)) ∨ (toR a < toR x ∧ (x - a) * (.inf s : F64) = .inf s) := by
  rcases sub_sign hx ha h with ⟨h1, e | ⟨q, hq, e⟩⟩ | ⟨h1, e | ⟨q, hq, e⟩⟩
  · refine .inl ⟨h1, ?_⟩; rw [e]; cases s <;> rfl
  · refine .inl ⟨h1, ?_⟩; rw [e]; show F64.mul _ _ = _; simp [F64.mul, hq.ne']
  · refine .inr ⟨h1, ?_⟩; rw [e]; cases s <;> rfl
  · refine .inr ⟨h1, ?_⟩; rw [e]; show F64.mul _ _ = _; simp [F64.mul, hq.ne']

/-- positions on the line as function of the plane: monotone in one of the two directions -/
theorem plane_mono {a i : F64} (ha : Num a) (hi : (Num i ∧ toR i ≠ 0) ∨ ∃ s, i = .inf s) :
    ∃ up : Bool, ∀ x y, Num x → Num y → ((∃ s, i = .inf s) → toR x ≠ toR a ∧ toR y ≠ toR a) → toR x ≤ toR y →
      F64.ok ((x - a) * i) ∧ F64.ok ((y - a) * i) ∧
      (if up then F64.key ((x - a) * i) ≤ F64.key ((y - a) * i) else F64.key ((y - a) * i) ≤ F64.key ((x - a) * i)) := by
  rcases hi with ⟨hi, h0⟩ | ⟨s, rfl⟩
  · rcases lt_or_gt_of_ne h0 with h0 | h0
    · refine ⟨false, fun x y hx hy _ h => ?_⟩
      exact mul_down (sub_ok hx ha) (sub_ok hy ha) (sub_rep _ _) (sub_rep _ _) hi h0 (key_sub_mono hx ha hy ha (by linarith))
    · refine ⟨true, fun x y hx hy _ h => ?_⟩
      exact mul_up (sub_ok hx ha) (sub_ok hy ha) (sub_rep _ _) (sub_rep _ _) hi h0 (key_sub_mono hx ha hy ha (by linarith))
  · refine ⟨!s, fun x y hx hy ho h => ?_⟩
    obtain ⟨n1, n2⟩ := ho ⟨s, rfl⟩
    have hk : ∀ t, F64.ok (.inf t) := fun t => F64.noConfusion
    rcases sub_mul_inf s hx ha n1 with ⟨g1, e1⟩ | ⟨g1, e1⟩ <;> rcases sub_mul_inf s hy ha n2 with ⟨g2, e2⟩ | ⟨g2, e2⟩ <;> rw [e1, e2]
    · exact ⟨hk _, hk _, by cases s <;> simp⟩
    · exact ⟨hk _, hk _, by cases s <;> simp [key_inf]⟩
    · linarith
    · exact ⟨hk _, hk _, by cases s <;> simp⟩

/-- the inverse of a finite double -/
theorem inv_form {d : F64} (hd : Num d) : ((Num (lit 1 / d) ∧ toR (lit 1 / d) ≠ 0) ∨ ∃ s, lit 1 / d = (.inf s : F64)) ∧
    (2 ^ (-1022 : ℤ) ≤ |toR d| → Num (lit 1 / d) ∧ toR (lit 1 / d) ≠ 0) := by
  obtain ⟨s, m, rfl, r, hm, e⟩ := hd.form
  have h1 : (lit 1 : F64) = .fin false 1 := by decide +kernel
  rw [h1]
  by_cases h0 : m = 0
  · subst h0
    refine ⟨.inr ⟨s, by cases s <;> decide +kernel⟩, fun h => ?_⟩
    rw [e] at h
    have : (0:ℝ) < 2 ^ (-1022 : ℤ) := zpow_pos two_pos _
    have h2 : val s 0 = 0 := by simp [val]
    rw [h2, Rat.cast_zero, abs_zero] at h
    exact absurd h (not_le.2 this)
  · have hp : 0 < m := lt_of_le_of_ne r.1 (Ne.symm h0)
    have hdiv : (.fin false 1 / .fin s m : F64) = F64.round s (1 / m) := by
      show F64.div _ _ = _
      simp [F64.div, h0]
    have hlow : (2:ℚ) ^ (-1024 : ℤ) ≤ 1 / m := by
      rw [le_div_iff₀ hp, zpow_neg, inv_mul_le_iff₀ (zpow_pos two_pos _), mul_one]
      exact r.2.1.le
    have hr : 0 < F64.rnd (1 / m) := by
      have := rnd_mono hlow
      rw [rnd_exact (dyad_pow2 (by norm_num))] at this
      exact (zpow_pos two_pos _).trans_le this
    have hrep := round_rep s (1 / m)
    have hfin : ¬ (2:ℚ) ^ (1024 : ℤ) ≤ F64.rnd (1 / m) → Num (.fin false 1 / .fin s m : F64) ∧ toR (.fin false 1 / .fin s m : F64) ≠ 0 := by
      intro hc
      rw [hdiv]
      rw [round_eq, if_neg hc] at hrep ⊢
      refine ⟨Num.mk' hrep, ?_⟩
      rw [real_fin]
      generalize F64.rnd (1 / m) = z at hr
      cases s <;> simp [val, hr.ne']
    constructor
    · by_cases hc : (2:ℚ) ^ (1024 : ℤ) ≤ F64.rnd (1 / m)
      · right; exact ⟨s, by rw [hdiv, round_eq, if_pos hc]⟩
      · exact .inl (hfin hc)
    · intro h
      apply hfin
      rw [e] at h
      have hm' : (2:ℚ) ^ (-1022 : ℤ) ≤ m := by
        have : |((val s m : ℚ) : ℝ)| = (m : ℝ) := by
          have : (0:ℝ) ≤ m := by exact_mod_cast hp.le
          cases s <;> simp [val, abs_of_nonneg this]
        rw [this] at h
        exact (Rat.cast_le (K := ℝ)).1 (by push_cast; exact h)
      have : 1 / m ≤ (2:ℚ) ^ (1022 : ℤ) := by
        rw [div_le_iff₀ hp]
        have := mul_le_mul_of_nonneg_left hm' (zpow_pos (two_pos (α := ℚ)) 1022).le
        rw [← zpow_add₀ two_ne_zero, show (1022:ℤ) + -1022 = 0 by norm_num, zpow_zero] at this
        exact this
      have := rnd_mono this
      rw [rnd_exact (dyad_pow2 (by norm_num))] at this
      exact not_le.2 (this.trans_lt (zpow_lt_zpow_right₀ one_lt_two (by norm_num)))

end F64

theorem enclosing_slab {lo hi lo' hi' a d : F64} (ha : F64.Num a) (hd : F64.Num d) (n1 : F64.Num lo) (n2 : F64.Num hi) (n3 : F64.Num lo') (n4 : F64.Num hi')
    (h1 : toR lo' ≤ toR lo) (h2 : toR hi ≤ toR hi') (h3 : toR lo ≤ toR hi)
    (ho : 2 ^ (-1022 : ℤ) ≤ |toR d| ∨ (toR lo ≠ toR a ∧ toR hi ≠ toR a ∧ toR lo' ≠ toR a ∧ toR hi' ≠ toR a)) :
    LawfulScalar.ok (AABBTree3D.slab lo hi a (lit 1 / d)).1 ∧ LawfulScalar.ok (AABBTree3D.slab lo hi a (lit 1 / d)).2 ∧
    LawfulScalar.ok (AABBTree3D.slab lo' hi' a (lit 1 / d)).1 ∧ LawfulScalar.ok (AABBTree3D.slab lo' hi' a (lit 1 / d)).2 ∧
    LawfulScalar.key (AABBTree3D.slab lo' hi' a (lit 1 / d)).1 ≤ LawfulScalar.key (AABBTree3D.slab lo hi a (lit 1 / d)).1 ∧
    LawfulScalar.key (AABBTree3D.slab lo hi a (lit 1 / d)).2 ≤ LawfulScalar.key (AABBTree3D.slab lo' hi' a (lit 1 / d)).2 := by
  obtain ⟨hi1, hi2⟩ := inv_form hd
  have hoff : (∃ s, lit 1 / d = (.inf s : F64)) → (toR lo ≠ toR a ∧ toR hi ≠ toR a ∧ toR lo' ≠ toR a ∧ toR hi' ≠ toR a) := by
    rintro ⟨s, hs⟩
    rcases ho with ho | ho
    · have := (hi2 ho).1
      rw [hs] at this
      obtain ⟨⟨_, _, h⟩, -⟩ := this
      cases h
    · exact ho
  obtain ⟨up, hm⟩ := plane_mono ha hi1
  generalize (lit 1 / d : F64) = i at *
  obtain ⟨o1, o2, k1⟩ := hm lo' lo n3 n1 (fun h => ⟨(hoff h).2.2.1, (hoff h).1⟩) h1
  obtain ⟨o3, o4, k2⟩ := hm hi hi' n2 n4 (fun h => ⟨(hoff h).2.1, (hoff h).2.2.2⟩) h2
  obtain ⟨-, -, k3⟩ := hm lo hi n1 n2 (fun h => ⟨(hoff h).1, (hoff h).2.1⟩) h3
  simp only [AABBTree3D.slab]
  have m1 := min64_key (α := F64) o2 o3
  have m2 := max64_key (α := F64) o2 o3
  have m3 := min64_key (α := F64) o1 o4
  have m4 := max64_key (α := F64) o1 o4
  refine ⟨m1.1, m2.1, m3.1, m4.1, ?_, ?_⟩
  · rw [m1.2, m3.2]
    change min (F64.key _) (F64.key _) ≤ min (F64.key _) (F64.key _)
    cases up
    · simp only [Bool.false_eq_true, if_false] at k1 k2 k3
      exact le_min ((min_le_right _ _).trans (k2.trans k3)) ((min_le_right _ _).trans k2)
    · simp only [if_true] at k1 k2 k3
      exact le_min ((min_le_left _ _).trans k1) ((min_le_left _ _).trans (k1.trans k3))
  · rw [m2.2, m4.2]
    change max (F64.key _) (F64.key _) ≤ max (F64.key _) (F64.key _)
    cases up
    · simp only [Bool.false_eq_true, if_false] at k1 k2 k3
      exact max_le (k1.trans (le_max_left _ _)) ((k3.trans k1).trans (le_max_left _ _))
    · simp only [if_true] at k1 k2 k3
      exact max_le ((k3.trans k2).trans (le_max_right _ _)) (k2.trans (le_max_right _ _))

/-- for the components of the direction whose inverse overflows (among them the zeros) the anchor is on no face of the box -/
def Spec.OffFaces (anchor dir : Point3D F64) (b : BoundingBox3D F64) : Prop :=
  ∀ d, |toR (at3 dir d)| < 2 ^ (-1022 : ℤ) → toR (at3 b.min d) ≠ toR (at3 anchor d) ∧ toR (at3 b.max d) ≠ toR (at3 anchor d)

theorem num_lt_1024 {a : F64} (h : F64.Num a) : |toR a| ≤ 2 ^ (1024 : ℤ) := by
  obtain ⟨s, m, rfl, r, hm, e⟩ := h.form
  rw [e]
  have h0 : (0:ℝ) ≤ m := by exact_mod_cast r.1
  have h1 : (m:ℝ) ≤ ((2 ^ (1024 : ℤ) : ℚ) : ℝ) := Rat.cast_le.2 r.2.1.le
  push_cast at h1
  cases s <;> simpa [val, abs_of_nonneg h0] using h1

theorem Spec.Box.Fin.within {n : Nat} {b : Box n F64} (h : b.Fin) : b.Within (2 ^ (1024 : ℤ)) :=
  fun d => ⟨num_lt_1024 (h d).1, num_lt_1024 (h d).2.1⟩

theorem enclosing_hit {anchor dir : Point3D F64} (ha : anchor.Num) (hd : dir.Num) {a b : BoundingBox3D F64} (hva : (box3 a).Fin) (hvb : (box3 b).Fin)
    (oa : OffFaces anchor dir a) (ob : OffFaces anchor dir b) (he : (box3 a).Encloses (box3 b))
    (h : (AABBTree3D.lineIntersection anchor dir b).isSome = true) : (AABBTree3D.lineIntersection anchor dir a).isSome = true := by
  have key := fun d : Fin 3 => enclosing_slab (lo := at3 b.min d) (hi := at3 b.max d) (lo' := at3 a.min d) (hi' := at3 a.max d)
    (a := at3 anchor d) (d := at3 dir d) (by revert d; rw [forall_fin3]; exact ha) (by revert d; rw [forall_fin3]; exact hd)
    (hvb d).1 (hvb d).2.1 (hva d).1 (hva d).2.1
    (by
      have := (he d).1
      change F64.key ((box3 a).lo d) ≤ F64.key ((box3 b).lo d) at this
      rwa [(hva d).1.key, (hvb d).1.key, EReal.coe_le_coe_iff] at this)
    (by
      have := (he d).2
      change F64.key ((box3 b).hi d) ≤ F64.key ((box3 a).hi d) at this
      rwa [(hva d).2.1.key, (hvb d).2.1.key, EReal.coe_le_coe_iff] at this)
    (hvb d).2.2.le
    (by
      rcases le_or_gt (2 ^ (-1022 : ℤ)) |toR (at3 dir d)| with h | h
      · exact .inl h
      · exact .inr ⟨(ob d h).1, (ob d h).2, (oa d h).1, (oa d h).2⟩)
  rw [lineIntersection_isSome anchor dir b _ _ (fun d => ⟨(key d).1, (key d).2.1, rfl, rfl⟩)] at h
  rw [lineIntersection_isSome anchor dir a _ _ (fun d => ⟨(key d).2.2.1, (key d).2.2.2.1, rfl, rfl⟩)]
  exact ⟨fun d e => (key d).2.2.2.2.1.trans ((h.1 d e).trans (key e).2.2.2.2.2), fun e => (h.2 e).trans (key e).2.2.2.2.2⟩

theorem lawful_off (anchor dir : Point3D F64) : LawfulBoxOps (boxOps3 : BoxOps (BoundingBox3D F64) (Point3D F64))
    (fun b => (box3 b).Fin ∧ OffFaces anchor dir b) (fun a b => (box3 a).Encloses (box3 b)) := by
  have L := lawfulBoxOps3_fin (2 ^ (1024 : ℤ))
  refine ⟨L.refl, L.trans, ?_, fun a b ha hb => L.left a b ⟨ha.1, ha.1.within⟩ ⟨hb.1, hb.1.within⟩,
    fun a b ha hb => L.right a b ⟨ha.1, ha.1.within⟩ ⟨hb.1, hb.1.within⟩,
    fun depth n b hn hb h => L.split depth n b ⟨hn.1, hn.1.within⟩ ⟨hb.1, hb.1.within⟩ h⟩
  · intro a b ha hb
    refine ⟨(L.valid a b ⟨ha.1, ha.1.within⟩ ⟨hb.1, hb.1.within⟩).1, ?_⟩
    have oa := ha.2
    have ob := hb.2
    show OffFaces anchor dir (a.combine b)
    have pm : ∀ (u v c : F64), toR u ≠ toR c → toR v ≠ toR c → toR (mn u v) ≠ toR c := by
      intro u v c h1 h2
      rcases mn_mem u v with e | e <;> rw [e] <;> assumption
    have px : ∀ (u v c : F64), toR u ≠ toR c → toR v ≠ toR c → toR (mx u v) ≠ toR c := by
      intro u v c h1 h2
      rcases mx_mem u v with e | e <;> rw [e] <;> assumption
    simp only [OffFaces, BoundingBox3D.combine_eq, forall_fin3, at3_zero, at3_one, at3_two] at oa ob ⊢
    exact ⟨fun h => ⟨pm _ _ _ (oa.1 h).1 (ob.1 h).1, px _ _ _ (oa.1 h).2 (ob.1 h).2⟩,
      fun h => ⟨pm _ _ _ (oa.2.1 h).1 (ob.2.1 h).1, px _ _ _ (oa.2.1 h).2 (ob.2.1 h).2⟩,
      fun h => ⟨pm _ _ _ (oa.2.2 h).1 (ob.2.2 h).1, px _ _ _ (oa.2.2 h).2 (ob.2.2 h).2⟩⟩

/-- C23 for lines in doubles: exactly the elements whose own box passes the line test are reported, by any tree, for all anchors
and directions with `OffFaces` -/
theorem c23_line_f64_partial {HB : Type} (bb : HB → BoundingBox3D F64) (data : List HB) (maxdepth bucket : Nat)
    (hV : ∀ x ∈ data, (box3 (bb x)).Fin) :
    ∃ t, AABBTree3D.new bb data maxdepth bucket = some t ∧
      ∀ (anchor dir : Point3D F64), anchor.Num → dir.Num → (∀ x ∈ data, OffFaces anchor dir (bb x)) →
        ∃ r, AABBTree3D.forEachIntersectionCandidate bb t anchor dir = some r ∧
        ∀ x, x ∈ r ↔ x ∈ data ∧ (AABBTree3D.lineIntersection anchor dir (bb x)).isSome = true := by
  obtain ⟨t, h1, -⟩ := AABBTree.newRec_inv (bb := bb) (lawfulBoxOps3_fin (2 ^ (1024 : ℤ))) bucket maxdepth 0 data
    (fun x hx => ⟨hV x hx, (hV x hx).within⟩)
  refine ⟨t, h1, fun anchor dir ha hd ho => ?_⟩
  obtain ⟨t', h2, hi⟩ := AABBTree.newRec_inv (bb := bb) (lawful_off anchor dir) bucket maxdepth 0 data
    (fun x hx => ⟨hV x hx, ho x hx⟩)
  rw [h1] at h2
  cases h2
  obtain ⟨r, hr, hr'⟩ := AABBTree.visit_spec
      (test := fun b => some (AABBTree3D.lineIntersection anchor dir b).isSome)
      (fun b _ => ⟨_, rfl⟩) (by
        intro a b hva hvb he h
        simp only [Option.some.injEq] at h ⊢
        exact enclosing_hit ha hd hva.1 hvb.1 hva.2 hvb.2 he h) hi
  refine ⟨r, hr, fun x => ?_⟩
  rw [hr']
  simp

/-- `OffFaces` for a direction with a zero component -/
example : OffFaces ⟨F64.neg (f 1), f 0, f (1/2)⟩ ⟨f 1, f 2, f 0⟩ ⟨⟨f 0, f 0, f 0⟩, ⟨f 1, f 1, f 1⟩⟩ := by
  have h0 := ex_num 0 false 0 (by decide +kernel)
  have h1 := ex_num 1 false 1 (by decide +kernel)
  have h2 := ex_num (1/2) false (1/2) (by decide +kernel)
  have h3 := ex_num 2 false 2 (by decide +kernel)
  have t1 : (2:ℝ) ^ (-1022 : ℤ) ≤ 1 := zpow_le_one_of_nonpos₀ one_le_two (by norm_num)
  simp only [OffFaces, forall_fin3, at3_zero, at3_one, at3_two, h0.2, h1.2, h2.2, h3.2, val]
  generalize (2:ℝ) ^ (-1022 : ℤ) = T at *
  refine ⟨fun h => ?_, fun h => ?_, fun _ => by norm_num⟩
  · norm_num at h; linarith
  · norm_num at h; linarith

/-! ### accuracy -/

/-- the point of the line at `t` is in the box grown by `m` on all sides (shrunk if `m` is negative) -/
def Spec.LineNear (anchor dir : Point3D F64) (b : BoundingBox3D F64) (m t : ℝ) : Prop :=
  ∀ d, toR (at3 b.min d) - m ≤ toR (at3 anchor d) + t * toR (at3 dir d) ∧
    toR (at3 anchor d) + t * toR (at3 dir d) ≤ toR (at3 b.max d) + m

/-- the position of a plane on the line: the rounded position belongs to a plane nearby -/
theorem plane_err {x a d : F64} {M : ℝ} (hx : F64.Num x) (ha : F64.Num a) (hd : F64.Num d) (h1 : |toR x - toR a| ≤ M)
    (hM : 2 ^ (-500 : ℤ) ≤ M) (hM' : M ≤ 2 ^ (500 : ℤ)) (hd1 : 2 ^ (-400 : ℤ) ≤ |toR d|) (hd2 : |toR d| ≤ 2 ^ (400 : ℤ)) :
    F64.Num ((x - a) * (lit 1 / d)) ∧ |toR ((x - a) * (lit 1 / d)) * toR d - (toR x - toR a)| ≤ M / 2 ^ 50 := by
  have hM0 : 0 < M := (zpow_pos two_pos _).trans_le hM
  have hd0 : 0 < |toR d| := (zpow_pos two_pos _).trans_le hd1
  have hdn : toR d ≠ 0 := abs_pos.1 hd0
  have u1 := uu_53
  obtain ⟨s1, s2⟩ := toR_sub hx ha (h1.trans (hM'.trans (zpow_le_zpow_right₀ one_le_two (by norm_num))))
  have l1 : F64.Num (lit 1 : F64) ∧ toR (lit 1 : F64) = 1 := by
    have : (lit 1 : F64) = .fin false 1 := by decide +kernel
    rw [this]
    exact ⟨Num.mk' ⟨by norm_num, by exact one_lt_zpow₀ one_lt_two (by norm_num), 1, 0, by norm_num, by norm_num, by norm_num⟩, by rw [real_fin]; simp [val]⟩
  have hinv : |toR (lit 1 : F64) / toR d| ≤ 2 ^ (400 : ℤ) := by
    rw [l1.2, abs_div, abs_one, div_le_iff₀ hd0]
    calc (1:ℝ) = 2 ^ (400 : ℤ) * 2 ^ (-400 : ℤ) := by rw [← zpow_add₀ two_ne_zero]; norm_num
      _ ≤ _ := mul_le_mul_of_nonneg_left hd1 (zpow_pos two_pos _).le
  obtain ⟨i1, i2⟩ := toR_div l1.1 hd hdn (hinv.trans (zpow_le_zpow_right₀ one_le_two (by norm_num)))
  rw [l1.2] at i2 hinv
  have hu : (2:ℝ) ^ (-53 : ℤ) = uu := rfl
  rw [hu] at s2 i2
  -- inverse times direction
  have iv : |toR (lit 1 / d) * toR d - 1| ≤ 2 * uu := by
    have e : toR (lit 1 / d) * toR d - 1 = (toR (lit 1 / d) - 1 / toR d) * toR d := by field_simp
    rw [e, abs_mul]
    refine (mul_le_mul_of_nonneg_right i2 hd0.le).trans ?_
    have e2 : (uu * |1 / toR d| + 2 ^ (-1075 : ℤ)) * |toR d| = uu + 2 ^ (-1075 : ℤ) * |toR d| := by
      rw [abs_div, abs_one]; field_simp
    rw [e2]
    have : (2:ℝ) ^ (-1075 : ℤ) * |toR d| ≤ uu := by
      refine (mul_le_mul_of_nonneg_left hd2 (zpow_pos two_pos _).le).trans ?_
      rw [← zpow_add₀ two_ne_zero, ← hu]
      exact zpow_le_zpow_right₀ one_le_two (by norm_num)
    linarith
  have iv2 : |toR (lit 1 / d)| ≤ 2 ^ (401 : ℤ) := by
    have h3 : |toR (lit 1 / d)| ≤ |1 / toR d| + (uu * |1 / toR d| + 2 ^ (-1075 : ℤ)) := by
      have := abs_add_le (1 / toR d) (toR (lit 1 / d) - 1 / toR d)
      rw [add_sub_cancel] at this
      linarith
    have h4 : (2:ℝ) ^ (401 : ℤ) = 2 ^ (400 : ℤ) * 2 := by rw [show (401:ℤ) = 400 + 1 by norm_num, zpow_add₀ two_ne_zero, zpow_one]
    have h5 : (2:ℝ) ^ (-1075 : ℤ) ≤ 1 := zpow_le_one_of_nonpos₀ one_le_two (by norm_num)
    have h6 : (4:ℝ) ≤ 2 ^ (400 : ℤ) := le_trans (by norm_num : (4:ℝ) ≤ 2 ^ (2 : ℤ)) (zpow_le_zpow_right₀ one_le_two (by norm_num))
    have h7 := mul_le_mul_of_nonneg_left hinv uu_pos.le
    rw [h4]
    rw [u1] at h3 h7
    generalize (2:ℝ) ^ (400 : ℤ) = T at *
    generalize (2:ℝ) ^ (-1075 : ℤ) = T' at *
    generalize |1 / toR d| = Q at *
    linarith only [h3, h5, h6, h7, hinv]
  have sb : |toR (x - a)| ≤ 2 * M := by
    have := abs_add_le (toR x - toR a) (toR (x - a) - (toR x - toR a))
    rw [add_sub_cancel] at this
    have h7 := mul_le_mul_of_nonneg_left h1 uu_pos.le
    rw [u1] at s2 h7
    linarith only [this, s2, h7, h1, hM0]
  have hpr : |toR (x - a) * toR (lit 1 / d)| ≤ 2 ^ (1023 : ℤ) := by
    rw [abs_mul]
    refine (mul_le_mul sb iv2 (abs_nonneg _) (by linarith)).trans ?_
    refine (mul_le_mul_of_nonneg_right (mul_le_mul_of_nonneg_left hM' (by norm_num : (0:ℝ) ≤ 2)) (zpow_pos two_pos _).le).trans ?_
    have : (2:ℝ) * 2 ^ (500 : ℤ) * 2 ^ (401 : ℤ) = 2 ^ (902 : ℤ) := by
      rw [← zpow_one_add₀ two_ne_zero, ← zpow_add₀ two_ne_zero]; norm_num
    rw [this]
    exact zpow_le_zpow_right₀ one_le_two (by norm_num)
  obtain ⟨p1, p2⟩ := toR_mul s1 i1 hpr
  refine ⟨p1, ?_⟩
  rw [hu] at p2
  generalize toR ((x - a) * (lit 1 / d)) = G at *
  generalize toR (x - a) = S at *
  generalize toR (lit 1 / d) = I at *
  generalize toR x - toR a = s at *
  generalize toR d = D at *
  -- |G - S I| ≤ u |S I| + tiny
  have t1 : |G * D - S * (I * D)| ≤ 3 * uu * M := by
    have e : G * D - S * (I * D) = (G - S * I) * D := by ring
    rw [e, abs_mul]
    refine (mul_le_mul_of_nonneg_right p2 hd0.le).trans ?_
    have e2 : (uu * |S * I| + 2 ^ (-1075 : ℤ)) * |D| = uu * (|S| * |I * D|) + 2 ^ (-1075 : ℤ) * |D| := by rw [abs_mul, abs_mul]; ring
    rw [e2]
    have h8 : |I * D| ≤ 1 + 2 * uu := by
      have := abs_add_le 1 (I * D - 1)
      rw [add_sub_cancel, abs_one] at this
      linarith
    have h9 : (2:ℝ) ^ (-1075 : ℤ) * |D| ≤ uu * (1 / 4 * M) := by
      refine (mul_le_mul_of_nonneg_left hd2 (zpow_pos two_pos _).le).trans ?_
      have : (2:ℝ) ^ (-1075 : ℤ) * 2 ^ (400 : ℤ) ≤ uu * (1 / 4 * 2 ^ (-500 : ℤ)) := by
        rw [← hu, show (1:ℝ) / 4 = 2 ^ (-2 : ℤ) by norm_num, ← zpow_add₀ two_ne_zero, ← zpow_add₀ two_ne_zero, ← zpow_add₀ two_ne_zero]
        exact zpow_le_zpow_right₀ one_le_two (by norm_num)
      refine this.trans (mul_le_mul_of_nonneg_left (by linarith) uu_pos.le)
    have h10 : uu * (|S| * |I * D|) ≤ uu * (2 * M * (1 + 2 * uu)) :=
      mul_le_mul_of_nonneg_left (mul_le_mul sb h8 (abs_nonneg _) (by linarith)) uu_pos.le
    have h11 : uu * (2 * M * (1 + 2 * uu)) ≤ uu * (5 / 2 * M) := by
      refine mul_le_mul_of_nonneg_left ?_ uu_pos.le
      rw [u1]; linarith
    have h12 := mul_pos uu_pos hM0
    generalize (2:ℝ) ^ (-1075 : ℤ) * |D| = T at *
    nlinarith only [h9, h10, h11, h12]
  have t2 : |S * (I * D) - S| ≤ 4 * uu * M := by
    have e : S * (I * D) - S = S * (I * D - 1) := by ring
    rw [e, abs_mul]
    have := mul_le_mul sb iv (abs_nonneg _) (by linarith)
    linarith
  have t3 : |S - s| ≤ uu * M := s2.trans (mul_le_mul_of_nonneg_left h1 uu_pos.le)
  have t4 : |G * D - s| ≤ |G * D - S * (I * D)| + |S * (I * D) - S| + |S - s| := by
    have e : G * D - s = (G * D - S * (I * D)) + (S * (I * D) - S) + (S - s) := by ring
    rw [e]
    exact (abs_add_le _ _).trans (add_le_add_left (abs_add_le _ _) _)
  rw [u1] at t1 t2 t3
  linarith only [t1, t2, t3, t4]


/-- a slab: the positions at which the line is between the planes, as computed -/
structure Spec.SlabOk (lo hi a d : F64) (m : ℝ) (l u : EReal) : Prop where
  ok : LawfulScalar.ok (AABBTree3D.slab lo hi a (lit 1 / d)).1 ∧ LawfulScalar.ok (AABBTree3D.slab lo hi a (lit 1 / d)).2
  key : LawfulScalar.key (AABBTree3D.slab lo hi a (lit 1 / d)).1 = l ∧ LawfulScalar.key (AABBTree3D.slab lo hi a (lit 1 / d)).2 = u
  near : ∀ t : ℝ, l ≤ t → (t : EReal) ≤ u → toR lo - m ≤ toR a + t * toR d ∧ toR a + t * toR d ≤ toR hi + m
  hit : ∀ t : ℝ, toR lo + m ≤ toR a + t * toR d → toR a + t * toR d ≤ toR hi - m → l ≤ t ∧ (t : EReal) ≤ u

theorem slab_finite {lo hi a d : F64} {M : ℝ} (n1 : F64.Num lo) (n2 : F64.Num hi) (ha : F64.Num a) (hd : F64.Num d) (hlt : toR lo ≤ toR hi)
    (h1 : |toR lo - toR a| ≤ M) (h2 : |toR hi - toR a| ≤ M)
    (hM : 2 ^ (-500 : ℤ) ≤ M) (hM' : M ≤ 2 ^ (500 : ℤ)) (hd1 : 2 ^ (-400 : ℤ) ≤ |toR d|) (hd2 : |toR d| ≤ 2 ^ (400 : ℤ)) :
    ∃ l u : ℝ, SlabOk lo hi a d (M / 2 ^ 50) l u := by
  obtain ⟨p1, e1⟩ := plane_err n1 ha hd h1 hM hM' hd1 hd2
  obtain ⟨p2, e2⟩ := plane_err n2 ha hd h2 hM hM' hd1 hd2
  have hd0 : toR d ≠ 0 := abs_pos.1 ((zpow_pos two_pos _).trans_le hd1)
  have m1 := min64_key (α := F64) p1.ok p2.ok
  have m2 := max64_key (α := F64) p1.ok p2.ok
  change _ ∧ F64.key _ = min (F64.key _) (F64.key _) at m1
  change _ ∧ F64.key _ = max (F64.key _) (F64.key _) at m2
  rw [p1.key, p2.key, ← EReal.coe_strictMono.monotone.map_min] at m1
  rw [p1.key, p2.key, ← EReal.coe_strictMono.monotone.map_max] at m2
  refine ⟨_, _, ⟨m1.1, m2.1⟩, ⟨m1.2, m2.2⟩, ?_, ?_⟩
  · intro t l1 l2
    rw [EReal.coe_le_coe_iff] at l1 l2
    rw [abs_le] at e1 e2
    generalize toR ((lo - a) * (lit 1 / d)) = G at *
    generalize toR ((hi - a) * (lit 1 / d)) = H at *
    generalize M / 2 ^ 50 = m at *
    rcases lt_or_gt_of_ne hd0 with h0 | h0
    · have k1 : min (G * toR d) (H * toR d) ≤ t * toR d := by
        rcases le_max_iff.1 l2 with h | h
        · exact (min_le_left _ _).trans (mul_le_mul_of_nonpos_right h h0.le)
        · exact (min_le_right _ _).trans (mul_le_mul_of_nonpos_right h h0.le)
      have k2 : t * toR d ≤ max (G * toR d) (H * toR d) := by
        rcases min_le_iff.1 l1 with h | h
        · exact (mul_le_mul_of_nonpos_right h h0.le).trans (le_max_left _ _)
        · exact (mul_le_mul_of_nonpos_right h h0.le).trans (le_max_right _ _)
      constructor
      · rcases min_le_iff.1 k1 with h | h <;> linarith
      · rcases le_max_iff.1 k2 with h | h <;> linarith
    · have k1 : min (G * toR d) (H * toR d) ≤ t * toR d := by
        rcases min_le_iff.1 l1 with h | h
        · exact (min_le_left _ _).trans (mul_le_mul_of_nonneg_right h h0.le)
        · exact (min_le_right _ _).trans (mul_le_mul_of_nonneg_right h h0.le)
      have k2 : t * toR d ≤ max (G * toR d) (H * toR d) := by
        rcases le_max_iff.1 l2 with h | h
        · exact (mul_le_mul_of_nonneg_right h h0.le).trans (le_max_left _ _)
        · exact (mul_le_mul_of_nonneg_right h h0.le).trans (le_max_right _ _)
      constructor
      · rcases min_le_iff.1 k1 with h | h <;> linarith
      · rcases le_max_iff.1 k2 with h | h <;> linarith
  · intro t l1 l2
    rw [EReal.coe_le_coe_iff, EReal.coe_le_coe_iff]
    rw [abs_le] at e1 e2
    generalize toR ((lo - a) * (lit 1 / d)) = G at *
    generalize toR ((hi - a) * (lit 1 / d)) = H at *
    generalize M / 2 ^ 50 = m at *
    have a1 : G * toR d ≤ t * toR d := by linarith
    have a2 : t * toR d ≤ H * toR d := by linarith
    rcases lt_or_gt_of_ne hd0 with h0 | h0
    · have a1 := (mul_le_mul_right_of_neg h0).1 a1
      have a2 := (mul_le_mul_right_of_neg h0).1 a2
      exact ⟨(min_le_right _ _).trans a2, a1.trans (le_max_left _ _)⟩
    · have a1 := le_of_mul_le_mul_right a1 h0
      have a2 := le_of_mul_le_mul_right a2 h0
      exact ⟨(min_le_left _ _).trans a1, a2.trans (le_max_right _ _)⟩

theorem slab_parallel {lo hi a d : F64} {m : ℝ} (hm : 0 ≤ m) (n1 : F64.Num lo) (n2 : F64.Num hi) (ha : F64.Num a) (hd : F64.Num d) (hlt : toR lo < toR hi)
    (h0 : toR d = 0) (h1 : toR lo ≠ toR a) (h2 : toR hi ≠ toR a) :
    ∃ l u : EReal, SlabOk lo hi a d m l u ∧ ((l = ⊥ ∧ u = ⊤) ∨ (l = ⊤ ∧ u = ⊤) ∨ (l = ⊥ ∧ u = ⊥)) := by
  obtain ⟨s, hs⟩ : ∃ s, lit 1 / d = (.inf s : F64) := by
    obtain ⟨s, q, rfl, r, hm, e⟩ := hd.form
    rw [e] at h0
    have hq : q = 0 := by
      have : val s q = 0 := by exact_mod_cast h0
      cases s <;> simpa [val] using this
    subst hq
    exact ⟨s, by cases s <;> decide +kernel⟩
  have okinf : ∀ t, LawfulScalar.ok (.inf t : F64) := fun t => F64.noConfusion
  have keyinf : ∀ t, LawfulScalar.key (.inf t : F64) = if t then ⊥ else ⊤ := fun t => rfl
  rcases sub_mul_inf s n1 ha h1 with ⟨g1, e1⟩ | ⟨g1, e1⟩ <;> rcases sub_mul_inf s n2 ha h2 with ⟨g2, e2⟩ | ⟨g2, e2⟩
  · have a1 := min64_key (okinf (!s)) (okinf (!s))
    have a2 := max64_key (okinf (!s)) (okinf (!s))
    refine ⟨_, _, ⟨?_, ⟨rfl, rfl⟩, ?_, ?_⟩, ?_⟩
    · simp only [AABBTree3D.slab, hs, e1, e2]; exact ⟨a1.1, a2.1⟩
    · intro t l1 l2
      simp only [AABBTree3D.slab, hs, e1, e2, a1.2, a2.2, keyinf] at l1 l2
      cases s <;> simp at l1 l2
    · intro t l1 l2
      rw [h0] at l1 l2
      linarith
    · simp only [AABBTree3D.slab, hs, e1, e2, a1.2, a2.2, keyinf]
      cases s <;> simp
  · have a1 := min64_key (okinf (!s)) (okinf s)
    have a2 := max64_key (okinf (!s)) (okinf s)
    have hk : LawfulScalar.key (AABBTree3D.slab lo hi a (lit 1 / d)).1 = ⊥ ∧ LawfulScalar.key (AABBTree3D.slab lo hi a (lit 1 / d)).2 = ⊤ := by
      simp only [AABBTree3D.slab, hs, e1, e2, a1.2, a2.2, keyinf]
      cases s <;> simp
    refine ⟨_, _, ⟨?_, ⟨rfl, rfl⟩, ?_, ?_⟩, .inl hk⟩
    · simp only [AABBTree3D.slab, hs, e1, e2]; exact ⟨a1.1, a2.1⟩
    · intro t _ _
      rw [h0]; constructor <;> linarith
    · intro t _ _
      rw [hk.1, hk.2]
      exact ⟨bot_le, le_top⟩
  · linarith
  · have a1 := min64_key (okinf s) (okinf s)
    have a2 := max64_key (okinf s) (okinf s)
    refine ⟨_, _, ⟨?_, ⟨rfl, rfl⟩, ?_, ?_⟩, ?_⟩
    · simp only [AABBTree3D.slab, hs, e1, e2]; exact ⟨a1.1, a2.1⟩
    · intro t l1 l2
      simp only [AABBTree3D.slab, hs, e1, e2, a1.2, a2.2, keyinf] at l1 l2
      cases s <;> simp at l1 l2
    · intro t l1 l2
      rw [h0] at l1 l2
      linarith
    · simp only [AABBTree3D.slab, hs, e1, e2, a1.2, a2.2, keyinf]
      cases s <;> simp

/-- a line and a box with coordinate differences up to `M`, the anchor within `A` of the origin; components of the direction
are zero (then the anchor is on none of the faces) or of moderate size -/
structure Spec.LineScene (anchor dir : Point3D F64) (b : BoundingBox3D F64) (M A : ℝ) : Prop where
  numA : anchor.Num
  numD : dir.Num
  box : (box3 b).Fin
  dist : ∀ d, |toR (at3 b.min d) - toR (at3 anchor d)| ≤ M ∧ |toR (at3 b.max d) - toR (at3 anchor d)| ≤ M ∧ |toR (at3 anchor d)| ≤ A
  small : 2 ^ (-500 : ℤ) ≤ M
  large : M ≤ 2 ^ (500 : ℤ)
  far : A ≤ 2 ^ (1000 : ℤ)
  comp : ∀ d, (toR (at3 dir d) = 0 ∧ toR (at3 b.min d) ≠ toR (at3 anchor d) ∧ toR (at3 b.max d) ≠ toR (at3 anchor d)) ∨
    (2 ^ (-400 : ℤ) ≤ |toR (at3 dir d)| ∧ |toR (at3 dir d)| ≤ 2 ^ (400 : ℤ))
  dir0 : ∃ d, toR (at3 dir d) ≠ 0

section
variable {anchor dir : Point3D F64} {b : BoundingBox3D F64} {M A : ℝ} (S : LineScene anchor dir b M A)
include S

theorem Spec.LineScene.slabs : ∃ l u : Fin 3 → EReal, (∀ d, SlabOk (at3 b.min d) (at3 b.max d) (at3 anchor d) (at3 dir d) (M / 2 ^ 50) (l d) (u d)) ∧
    (∃ k, ∃ x y : ℝ, l k = x ∧ u k = y) ∧
    ∀ d, (l d = ⊥ ∧ u d = ⊤) ∨ (l d = ⊤ ∧ u d = ⊤) ∨ (l d = ⊥ ∧ u d = ⊥) ∨ ∃ x y : ℝ, l d = x ∧ u d = y := by
  have hM0 : 0 < M := (zpow_pos two_pos _).trans_le S.small
  have key : ∀ d, ∃ l u : EReal, SlabOk (at3 b.min d) (at3 b.max d) (at3 anchor d) (at3 dir d) (M / 2 ^ 50) l u ∧
      (toR (at3 dir d) ≠ 0 → ∃ x y : ℝ, l = x ∧ u = y) ∧
      ((l = ⊥ ∧ u = ⊤) ∨ (l = ⊤ ∧ u = ⊤) ∨ (l = ⊥ ∧ u = ⊥) ∨ ∃ x y : ℝ, l = x ∧ u = y) := by
    intro d
    have na : F64.Num (at3 anchor d) := by have := S.numA; revert d; rw [forall_fin3]; exact this
    have nd : F64.Num (at3 dir d) := by have := S.numD; clear na; revert d; rw [forall_fin3]; exact this
    obtain ⟨d1, d2, -⟩ := S.dist d
    rcases S.comp d with ⟨c1, c2, c3⟩ | ⟨c1, c2⟩
    · obtain ⟨l, u, h1, h2⟩ := slab_parallel (m := M / 2 ^ 50) (by positivity) (S.box d).1 (S.box d).2.1 na nd (S.box d).2.2 c1 c2 c3
      exact ⟨l, u, h1, fun h => absurd c1 h, by tauto⟩
    · obtain ⟨l, u, h1⟩ := slab_finite (S.box d).1 (S.box d).2.1 na nd (S.box d).2.2.le d1 d2 S.small S.large c1 c2
      exact ⟨l, u, h1, fun _ => ⟨l, u, rfl, rfl⟩, .inr (.inr (.inr ⟨l, u, rfl, rfl⟩))⟩
  choose l u h1 h2 h3 using key
  obtain ⟨k, hk⟩ := S.dir0
  exact ⟨l, u, h1, ⟨k, h2 k hk⟩, h3⟩


omit S in
theorem max64_mem (x y : F64) : AABBTree3D.max64 x y = x ∨ AABBTree3D.max64 x y = y := by
  unfold AABBTree3D.max64; split_ifs <;> simp

omit S in
theorem slab_rep (lo hi a i : F64) : Rep (AABBTree3D.slab lo hi a i).1 := by
  simp only [AABBTree3D.slab, AABBTree3D.min64]
  split_ifs <;> exact mul_rep _ _

/-- the point reported -/
theorem Spec.LineScene.point {tm : F64} (ht : F64.Num tm) (hn : ∀ d, |toR tm * toR (at3 dir d)| ≤ M + M / 2 ^ 50) (d : Fin 3) :
    F64.Num (at3 (anchor.add (dir.smul tm)) d) ∧
    |toR (at3 (anchor.add (dir.smul tm)) d) - (toR (at3 anchor d) + toR tm * toR (at3 dir d))| ≤ (A + 2 * M) / 2 ^ 52 := by
  have na : F64.Num (at3 anchor d) := by have := S.numA; revert d; rw [forall_fin3]; exact this
  have nd : F64.Num (at3 dir d) := by have := S.numD; clear na; revert d; rw [forall_fin3]; exact this
  have e : at3 (anchor.add (dir.smul tm)) d = at3 anchor d + tm * at3 dir d := by
    revert d; rw [forall_fin3]; exact ⟨fun _ _ => rfl, fun _ _ => rfl, fun _ _ => rfl⟩
  rw [e]
  have hM0 : 0 < M := (zpow_pos two_pos _).trans_le S.small
  have hb := hn d
  have u1 := uu_53
  have hu : (2:ℝ) ^ (-53 : ℤ) = uu := rfl
  have b1 : M + M / 2 ^ 50 ≤ 2 * M := by linarith
  have b2 : (2:ℝ) ^ (502 : ℤ) = 4 * 2 ^ (500 : ℤ) := by rw [show (502:ℤ) = 2 + 500 by norm_num, zpow_add₀ two_ne_zero]; norm_num
  have b3 : 4 * M ≤ 2 ^ (502 : ℤ) := by rw [b2]; linarith [S.large]
  have b4 : (2:ℝ) ^ (502 : ℤ) ≤ 2 ^ (1000 : ℤ) := zpow_le_zpow_right₀ one_le_two (by norm_num)
  have b5 : (2:ℝ) ^ (1000 : ℤ) + 2 ^ (1000 : ℤ) ≤ 2 ^ (1023 : ℤ) := by
    rw [← two_mul, ← zpow_one_add₀ two_ne_zero]; exact zpow_le_zpow_right₀ one_le_two (by norm_num)
  have b6 : (0:ℝ) < 2 ^ (1000 : ℤ) := zpow_pos two_pos _
  have tiny : (2:ℝ) ^ (-1075 : ℤ) ≤ 1 / 2 ^ 60 * M := by
    have : (2:ℝ) ^ (-1075 : ℤ) ≤ 1 / 2 ^ 60 * 2 ^ (-500 : ℤ) := by
      rw [show (1:ℝ) / 2 ^ 60 = 2 ^ (-60 : ℤ) by rw [zpow_neg, one_div]; norm_cast, ← zpow_add₀ two_ne_zero]
      exact zpow_le_zpow_right₀ one_le_two (by norm_num)
    exact this.trans (mul_le_mul_of_nonneg_left S.small (by positivity))
  obtain ⟨m1, m2⟩ := toR_mul ht nd (by
    generalize (2:ℝ) ^ (502 : ℤ) = T at *
    generalize (2:ℝ) ^ (1000 : ℤ) = T' at *
    generalize (2:ℝ) ^ (1023 : ℤ) = T'' at *
    linarith only [hb, b1, b3, b4, b5, b6, hM0])
  rw [hu] at m2
  have m3 : |toR (tm * at3 dir d)| ≤ |toR tm * toR (at3 dir d)| + (uu * |toR tm * toR (at3 dir d)| + 2 ^ (-1075 : ℤ)) := by
    have := abs_add_le (toR tm * toR (at3 dir d)) (toR (tm * at3 dir d) - toR tm * toR (at3 dir d))
    rw [add_sub_cancel] at this
    linarith
  have ha := (S.dist d).2.2
  have hA := S.far
  have m4 : |toR (at3 anchor d) + toR (tm * at3 dir d)| ≤ A + (1 + 1 / 2 ^ 40) * M := by
    refine (abs_add_le _ _).trans ?_
    have h7 := mul_le_mul_of_nonneg_left hb uu_pos.le
    rw [u1] at m3 h7
    generalize (2:ℝ) ^ (-1075 : ℤ) = T at *
    linarith only [m3, h7, hb, ha, tiny, hM0]
  obtain ⟨p1, p2⟩ := toR_add na m1 (by
    generalize (2:ℝ) ^ (502 : ℤ) = T at *
    generalize (2:ℝ) ^ (1000 : ℤ) = T' at *
    generalize (2:ℝ) ^ (1023 : ℤ) = T'' at *
    linarith only [m4, hA, b3, b4, b5, b6, hM0])
  refine ⟨p1, ?_⟩
  rw [hu] at p2
  have hA0 : 0 ≤ A := (abs_nonneg _).trans ha
  have p3 := mul_le_mul_of_nonneg_left m4 uu_pos.le
  have p4 := mul_le_mul_of_nonneg_left hb uu_pos.le
  have t4 : |toR (at3 anchor d + tm * at3 dir d) - (toR (at3 anchor d) + toR tm * toR (at3 dir d))| ≤
      |toR (at3 anchor d + tm * at3 dir d) - (toR (at3 anchor d) + toR (tm * at3 dir d))| + |toR (tm * at3 dir d) - toR tm * toR (at3 dir d)| := by
    refine le_trans (le_of_eq ?_) (abs_add_le _ _)
    congr 1; ring
  rw [u1] at *
  generalize (2:ℝ) ^ (-1075 : ℤ) = T at *
  linarith only [t4, p2, p3, p4, m2, tiny, hM0, hA0]

/-- C106: a reported point is close to the first point of the line in the box (up to M/2^50), the half line reaches the grown box,
and a half line reaching the shrunk box is never missed -/
theorem c106_line_box :
    (∀ p, AABBTree3D.lineIntersection anchor dir b = some p → ∃ s : ℝ,
      LineNear anchor dir b (M / 2 ^ 50) s ∧ (∀ t, LineNear anchor dir b (-(M / 2 ^ 50)) t → s ≤ t) ∧
      (∃ t, 0 ≤ t ∧ s ≤ t ∧ LineNear anchor dir b (M / 2 ^ 50) t) ∧
      ∀ d, F64.Num (at3 p d) ∧ |toR (at3 p d) - (toR (at3 anchor d) + s * toR (at3 dir d))| ≤ (A + 2 * M) / 2 ^ 52) ∧
    ((∃ t, 0 ≤ t ∧ LineNear anchor dir b (-(M / 2 ^ 50)) t) → ∃ p, AABBTree3D.lineIntersection anchor dir b = some p) := by
  obtain ⟨l, u, hs, ⟨k, x, y, hkx, hky⟩, hf⟩ := S.slabs
  have hsome := lineIntersection_isSome anchor dir b l u (fun d => ⟨(hs d).ok.1, (hs d).ok.2, (hs d).key.1, (hs d).key.2⟩)
  have hhit : ∀ t : ℝ, LineNear anchor dir b (-(M / 2 ^ 50)) t → ∀ d, l d ≤ t ∧ (t : EReal) ≤ u d := by
    intro t h d
    exact (hs d).hit t (by linarith [(h d).1]) (by linarith [(h d).2])
  constructor
  · intro p hp
    have hc := hsome.1 (by rw [hp]; rfl)
    have hnear : ∀ t : ℝ, (∀ d, l d ≤ t) → (∀ d, (t : EReal) ≤ u d) → LineNear anchor dir b (M / 2 ^ 50) t :=
      fun t h1 h2 d => (hs d).near t (h1 d) (h2 d)
    -- the smallest position
    have o0 := (hs 0).ok.1
    have o1 := (hs 1).ok.1
    have o2 := (hs 2).ok.1
    have k0 := (hs 0).key.1
    have k1 := (hs 1).key.1
    have k2 := (hs 2).key.1
    simp only [at3_zero, at3_one, at3_two] at o0 o1 o2 k0 k1 k2
    have m1 := max64_key o0 o1
    have m2 := max64_key m1.1 o2
    obtain ⟨tm, htm⟩ : ∃ tm, tm = AABBTree3D.max64 (AABBTree3D.max64 (AABBTree3D.slab b.min.x b.max.x anchor.x (lit 1 / dir.x)).1
      (AABBTree3D.slab b.min.y b.max.y anchor.y (lit 1 / dir.y)).1) (AABBTree3D.slab b.min.z b.max.z anchor.z (lit 1 / dir.z)).1 := ⟨_, rfl⟩
    have hpe : p = anchor.add (dir.smul tm) := by
      rw [htm]
      unfold AABBTree3D.lineIntersection at hp
      simp only at hp
      split_ifs at hp with hcond
      exact (Option.some.inj hp).symm
    rw [← htm, m1.2, k0, k1, k2] at m2
    have hle : ∀ d, l d ≤ LawfulScalar.key tm := by
      rw [forall_fin3, m2.2]
      exact ⟨(le_max_left _ _).trans (le_max_left _ _), (le_max_right _ _).trans (le_max_left _ _), le_max_right _ _⟩
    have hub : ∀ d, LawfulScalar.key tm ≤ u d := by
      intro d
      rw [m2.2]
      exact max_le (max_le (hc.1 0 d) (hc.1 1 d)) (hc.1 2 d)
    have hrep : Rep tm := by
      rw [htm]
      rcases max64_mem (AABBTree3D.max64 (AABBTree3D.slab b.min.x b.max.x anchor.x (lit 1 / dir.x)).1
        (AABBTree3D.slab b.min.y b.max.y anchor.y (lit 1 / dir.y)).1) (AABBTree3D.slab b.min.z b.max.z anchor.z (lit 1 / dir.z)).1 with e | e <;> rw [e]
      · rcases max64_mem (AABBTree3D.slab b.min.x b.max.x anchor.x (lit 1 / dir.x)).1 (AABBTree3D.slab b.min.y b.max.y anchor.y (lit 1 / dir.y)).1 with e | e <;>
          rw [e] <;> exact slab_rep _ _ _ _
      · exact slab_rep _ _ _ _
    have htn : F64.Num tm := by
      rcases forms m2.1 hrep with h | ⟨s, rfl⟩
      · exact h
      · exfalso
        have g1 := hle k
        have g2 := hub k
        rw [hkx] at g1; rw [hky] at g2
        cases s
        · exact absurd g2 (by show ¬ ((⊤ : EReal) ≤ y); simp)
        · exact absurd g1 (by show ¬ ((x : EReal) ≤ ⊥); simp)
    have hkey : LawfulScalar.key tm = (toR tm : EReal) := htn.key
    rw [hkey] at hle hub
    have hN := hnear (toR tm) hle hub
    refine ⟨toR tm, hN, ?_, ?_, ?_⟩
    · intro t ht
      have := hhit t ht
      have : LawfulScalar.key tm ≤ (t : EReal) := by
        rw [m2.2]
        exact max_le (max_le (this 0).1 (this 1).1) (this 2).1
      rwa [hkey, EReal.coe_le_coe_iff] at this
    · refine ⟨max (toR tm) 0, le_max_right _ _, le_max_left _ _, hnear _ ?_ ?_⟩
      · intro d
        refine (hle d).trans ?_
        exact EReal.coe_le_coe_iff.2 (le_max_left _ _)
      · intro d
        rw [EReal.coe_strictMono.monotone.map_max]
        exact max_le (hub d) (by exact_mod_cast hc.2 d)
    · intro d
      rw [hpe]
      refine S.point htn (fun e => ?_) d
      have h1 := abs_le.1 (S.dist e).1
      have h2 := abs_le.1 (S.dist e).2.1
      have h3 := hN e
      rw [abs_le]
      constructor <;> linarith [h1.1, h1.2, h2.1, h2.2, h3.1, h3.2]
  · rintro ⟨t, ht, hn⟩
    have hh := hhit t hn
    rw [← Option.isSome_iff_exists, hsome]
    exact ⟨fun d e => (hh d).1.trans (hh e).2, fun e => le_trans (by exact_mod_cast ht) (hh e).2⟩

end

/-- C106 for the tree: the query reports the elements the line test accepts, hence every element whose shrunk box the half line hits
and only elements whose grown box it hits -/
theorem c106_tree {HB : Type} (bb : HB → BoundingBox3D F64) (data : List HB) (maxdepth bucket : Nat) (M A : HB → ℝ)
    (anchor dir : Point3D F64) (hS : ∀ x ∈ data, LineScene anchor dir (bb x) (M x) (A x)) :
    ∃ t r, AABBTree3D.new bb data maxdepth bucket = some t ∧ AABBTree3D.forEachIntersectionCandidate bb t anchor dir = some r ∧
      (∀ x ∈ r, x ∈ data ∧ ∃ s, 0 ≤ s ∧ LineNear anchor dir (bb x) (M x / 2 ^ 50) s) ∧
      ∀ x ∈ data, (∃ s, 0 ≤ s ∧ LineNear anchor dir (bb x) (-(M x / 2 ^ 50)) s) → x ∈ r := by
  obtain ⟨t, ht, hq⟩ := c23_line_f64_partial bb data maxdepth bucket (fun x hx => (hS x hx).box)
  by_cases hne : data = []
  · subst hne
    have : t = .empty := by
      simp [AABBTree3D.new, AABBTree.new, AABBTree.newRec] at ht
      exact ht.symm
    subst this
    exact ⟨_, [], ht, rfl, by simp, by simp⟩
  obtain ⟨x0, hx0⟩ := List.exists_mem_of_ne_nil data hne
  obtain ⟨r, hr, hr'⟩ := hq anchor dir (hS x0 hx0).numA (hS x0 hx0).numD (fun x hx d hd => by
    rcases (hS x hx).comp d with h | h
    · exact h.2
    · exfalso
      have : (2:ℝ) ^ (-1022 : ℤ) ≤ 2 ^ (-400 : ℤ) := zpow_le_zpow_right₀ one_le_two (by norm_num)
      exact absurd (this.trans h.1) (not_le.2 hd))
  refine ⟨t, r, ht, hr, ?_, ?_⟩
  · intro x hx
    obtain ⟨hm, hsome⟩ := (hr' x).1 hx
    obtain ⟨p, hp⟩ := Option.isSome_iff_exists.1 hsome
    obtain ⟨s, -, -, ⟨t, h0, -, hn⟩, -⟩ := (c106_line_box (hS x hm)).1 p hp
    exact ⟨hm, t, h0, hn⟩
  · intro x hx hex
    obtain ⟨p, hp⟩ := (c106_line_box (hS x hx)).2 hex
    exact (hr' x).2 ⟨hx, by rw [hp]; rfl⟩

/-- a scene with a direction parallel to one of the faces -/
example : LineScene ⟨F64.neg (f 1), f 0, f (1/2)⟩ ⟨f (3/5), f (4/5), f 0⟩ ⟨⟨f 0, f 0, f 0⟩, ⟨f 1, f 1, f 1⟩⟩ 2 1 := by
  have h0 := ex_num 0 false 0 (by decide +kernel)
  have h1 := ex_num 1 false 1 (by decide +kernel)
  have h2 := ex_num (1/2) false (1/2) (by decide +kernel)
  have h4 := ex_num (3/5) false (5404319552844595 / 9007199254740992) (by decide +kernel)
  have h5 := ex_num (4/5) false (3602879701896397 / 4503599627370496) (by decide +kernel)
  have h3 : (F64.neg (f 1)).Num := h1.1.neg
  have h3' : toR (F64.neg (f 1)) = - toR (f 1) := toR_neg h1.1
  have t1 : (2:ℝ) ^ (-400 : ℤ) ≤ 1 / 2 := by
    rw [show (1:ℝ) / 2 = 2 ^ (-1 : ℤ) by norm_num]; exact zpow_le_zpow_right₀ one_le_two (by norm_num)
  have t2 : (1:ℝ) ≤ 2 ^ (400 : ℤ) := one_le_zpow₀ one_le_two (by norm_num)
  refine ⟨?_, ?_, ?_, ?_, ?_, ?_, ?_, ?_, ?_⟩
  · simp only [Point3D.Num, h0.1, h2.1, h3, and_self]
  · simp only [Point3D.Num, h0.1, h4.1, h5.1, and_self]
  · simp only [Box.Fin, box3, forall_fin3, at3_zero, at3_one, at3_two, h0, h1, val]; norm_num
  · simp only [forall_fin3, at3_zero, at3_one, at3_two, h0.2, h1.2, h2.2, h3', val]; norm_num [abs_le]
  · refine (zpow_le_one_of_nonpos₀ one_le_two (by norm_num)).trans (by norm_num)
  · exact le_trans (by norm_num : (2:ℝ) ≤ 2 ^ (1 : ℤ)) (zpow_le_zpow_right₀ one_le_two (by norm_num))
  · exact one_le_zpow₀ one_le_two (by norm_num)
  · rw [forall_fin3]
    refine ⟨.inr ?_, .inr ?_, .inl ?_⟩
    · simp only [at3_zero, h4.2, val]
      generalize (2:ℝ) ^ (-400 : ℤ) = T at *
      generalize (2:ℝ) ^ (400 : ℤ) = T' at *
      norm_num
      constructor <;> linarith
    · simp only [at3_one, h5.2, val]
      generalize (2:ℝ) ^ (-400 : ℤ) = T at *
      generalize (2:ℝ) ^ (400 : ℤ) = T' at *
      norm_num
      constructor <;> linarith
    · simp only [at3_two, h0.2, h1.2, h2.2, val]; norm_num
  · exact ⟨0, by simp only [at3_zero, h4.2, val]; norm_num⟩

/-- C106 without a margin is false: the line passes through the interior of the box, but rounding loses it -/
theorem c106_violated_rounding : ∃ (anchor dir : Point3D F64) (b : BoundingBox3D F64) (t : ℝ),
    anchor = ⟨f 0, f (1/2), f (1/2)⟩ ∧ dir = ⟨f (3/5), f (-4/5), f 0⟩ ∧
    b = ⟨⟨f (1/2), f (-4/5), f 0⟩, ⟨f (9/10), f (-6305039478318695 / 9007199254740992), f 1⟩⟩ ∧ (box3 b).Fin ∧ 0 ≤ t ∧
    (∀ d, toR (at3 b.min d) < toR (at3 anchor d) + t * toR (at3 dir d) ∧ toR (at3 anchor d) + t * toR (at3 dir d) < toR (at3 b.max d)) ∧
    AABBTree3D.lineIntersection anchor dir b = none := by
  refine ⟨_, _, _, (3 / 2 + 8106479329266893 / 5404319552844595) / 2, rfl, rfl, rfl, ?_, by norm_num, ?_, by decide +kernel⟩
  all_goals
    have h0 := ex_num 0 false 0 (by decide +kernel)
    have h1 := ex_num 1 false 1 (by decide +kernel)
    have h2 := ex_num (1/2) false (1/2) (by decide +kernel)
    have h4 := ex_num (3/5) false (5404319552844595 / 9007199254740992) (by decide +kernel)
    have h5 := ex_num (-4/5) true (3602879701896397 / 4503599627370496) (by decide +kernel)
    have h6 := ex_num (9/10) false (8106479329266893 / 9007199254740992) (by decide +kernel)
    have h7 := ex_num (-6305039478318695 / 9007199254740992) true (6305039478318695 / 9007199254740992) (by decide +kernel)
  · simp only [Box.Fin, box3, forall_fin3, at3_zero, at3_one, at3_two, h0, h1, h2, h5, h6, h7, val]; norm_num
  · simp only [forall_fin3, at3_zero, at3_one, at3_two, h0.2, h1.2, h2.2, h4.2, h5.2, h6.2, h7.2, val]; norm_num

end R3D
