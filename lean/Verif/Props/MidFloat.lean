import Verif.Props.BoxFloat
import Verif.Props.RotFloat
import Verif.Model.PointCloud
import Verif.Props.Nd
import Verif.Props.Subdivide
/-
C115: midpoints of doubles, and subdivided meshes of doubles.
-/
namespace R3D
open Scalar Spec F64

/-- `c` is between `a` and `b`, and the middle up to `2^k` of the larger of the two -/
def Spec.IsMiddle (k : ℤ) (a b c : F64) : Prop :=
  F64.Num c ∧ min (toR a) (toR b) ≤ toR c ∧ toR c ≤ max (toR a) (toR b) ∧
    |toR c - (toR a + toR b) / 2| ≤ 2 ^ k * max |toR a| |toR b| + 2 ^ (-1075 : ℤ)

namespace F64

/-- twice a double is a double -/
theorem num_twice {a : F64} (ha : Num a) (h : |toR a| ≤ 2 ^ (1022 : ℤ)) : ∃ b, Num b ∧ toR b = 2 * toR a := by
  obtain ⟨s, m, rfl, ⟨r0, r1, k, e, hk, he, hm⟩, -, e1⟩ := ha.form
  have hm' : m ≤ 2 ^ (1022 : ℤ) := by
    have hv : |val s m| = m := by cases s <;> simp [val, abs_of_nonneg r0]
    rw [e1, ← Rat.cast_abs, hv] at h
    exact_mod_cast h
  refine ⟨.fin s (2 * m), Num.mk' ⟨by linarith, ?_, k, e + 1, hk, by omega, ?_⟩, ?_⟩
  · rw [show (1024 : ℤ) = 1022 + 2 by norm_num, zpow_add₀ two_ne_zero]
    have := two_zpow_pos (1022 : ℤ)
    norm_num only
    generalize (2:ℚ) ^ (1022 : ℤ) = t at *
    linarith
  · rw [zpow_add_one₀ two_ne_zero, hm]; ring
  · rw [e1, real_fin]
    cases s <;> simp [val]

theorem half_mul {a : F64} (ha : Num a) : (Scalar.lit (1 / 2) : F64) * a = a / Scalar.lit 2 := by
  obtain ⟨s, m, rfl, r, -, -⟩ := ha.form
  rw [lit_two, show (Scalar.lit (1 / 2) : F64) = .fin false (1 / 2) by decide +kernel]
  show F64.mul _ _ = F64.div _ _
  simp only [F64.mul, F64.div]
  rw [if_neg (by norm_num), Bool.false_xor, Bool.xor_false]
  congr 1
  ring

theorem add_comm_any (a b : F64) : a + b = b + a := by
  show F64.add _ _ = F64.add _ _
  cases a <;> cases b <;> simp only [F64.add]
  · rename_i s t; cases s <;> cases t <;> rfl
  · rename_i s m t n
    rw [add_comm (val s m)]
    cases s <;> cases t <;> rfl

/-- half of the sum -/
theorem mid_sum {a b : F64} (ha : Num a) (hb : Num b) (h1 : |toR a| ≤ 2 ^ (1022 : ℤ)) (h2 : |toR b| ≤ 2 ^ (1022 : ℤ)) :
    IsMiddle (-53) a b (Scalar.lit (1 / 2) * (a + b)) := by
  obtain ⟨a2, na2, ea2⟩ := num_twice ha h1
  obtain ⟨b2, nb2, eb2⟩ := num_twice hb h2
  have e1023 : (2:ℝ) ^ (1023 : ℤ) = 2 * 2 ^ (1022 : ℤ) := by rw [← zpow_one_add₀ two_ne_zero]; norm_num
  obtain ⟨ns, es⟩ := toR_add ha hb ((abs_add_le _ _).trans (by rw [e1023]; linarith))
  rw [half_mul ns]
  obtain ⟨nc, ec⟩ := toR_half ns
  have hη := eta_half
  have hη0 := eta_pos
  have lo : 2 * min (toR a) (toR b) ≤ toR (a + b) := by
    rcases le_total (toR a) (toR b) with h | h
    · have := le_key_add ha hb na2 (by rw [ea2]; linarith)
      rw [na2.key, ns.key, EReal.coe_le_coe_iff, ea2] at this
      rw [min_eq_left h]; exact this
    · have := le_key_add ha hb nb2 (by rw [eb2]; linarith)
      rw [nb2.key, ns.key, EReal.coe_le_coe_iff, eb2] at this
      rw [min_eq_right h]; exact this
  have hi : toR (a + b) ≤ 2 * max (toR a) (toR b) := by
    rcases le_total (toR a) (toR b) with h | h
    · have := key_add_le ha hb nb2 (by rw [eb2]; linarith)
      rw [nb2.key, ns.key, EReal.coe_le_coe_iff, eb2] at this
      rw [max_eq_right h]; exact this
    · have := key_add_le ha hb na2 (by rw [ea2]; linarith)
      rw [na2.key, ns.key, EReal.coe_le_coe_iff, ea2] at this
      rw [max_eq_left h]; exact this
  generalize a + b = s at *
  generalize s / Scalar.lit 2 = c at *
  have mmin : MultR (min (toR a) (toR b)) := by rcases min_choice (toR a) (toR b) with h | h <;> rw [h]; exacts [ha.multR, hb.multR]
  have mmax : MultR (max (toR a) (toR b)) := by rcases max_choice (toR a) (toR b) with h | h <;> rw [h]; exacts [ha.multR, hb.multR]
  obtain ⟨ec1, ec2⟩ := abs_le.1 ec
  refine ⟨nc, mmin.le_of_lt nc.multR (by linarith), nc.multR.le_of_lt mmax (by linarith), ?_⟩
  have hm : |toR a + toR b| ≤ 2 * max |toR a| |toR b| :=
    (abs_add_le _ _).trans (by linarith [le_max_left |toR a| |toR b|, le_max_right |toR a| |toR b|])
  have hm := mul_le_mul_of_nonneg_left hm u_pos.le
  obtain ⟨es1, es2⟩ := abs_le.1 es
  clear e1023 h1 h2 hη
  generalize (2:ℝ) ^ (-53 : ℤ) = u at *
  generalize (2:ℝ) ^ (-1075 : ℤ) = w at *
  rw [abs_le]
  constructor <;> linarith

/-- one end and half of the way -/
theorem mid_way {l h : F64} (hl : Num l) (hh : Num h) (hb : |toR h - toR l| ≤ 2 ^ (1023 : ℤ)) :
    IsMiddle (-52) l h (l + (h - l) / Scalar.lit 2) := by
  obtain ⟨d1, d2⟩ := toR_sub hh hl hb
  obtain ⟨e1, e2⟩ := toR_half d1
  generalize h - l = d at *
  generalize d / Scalar.lit 2 = e at *
  have hη := eta_half
  have hη0 := eta_pos
  have hu := u_small
  rw [abs_le] at e2
  have sides : (toR l ≤ toR h ∧ 0 ≤ toR e ∧ toR e ≤ toR h - toR l) ∨ (toR h ≤ toR l ∧ toR e ≤ 0 ∧ toR h - toR l ≤ toR e) := by
    rcases le_total (toR l) (toR h) with hle | hle
    · left
      rw [abs_of_nonneg (by linarith : 0 ≤ toR h - toR l), abs_le, hu] at d2
      refine ⟨hle, MultR.le_of_lt ⟨0, by simp⟩ e1.multR ?_, e1.multR.le_of_lt (hh.multR.sub hl.multR) ?_⟩
      · linarith [e2.1, d2.1]
      · linarith [e2.2, d2.2]
    · right
      rw [abs_of_nonpos (by linarith : toR h - toR l ≤ 0), abs_le, hu] at d2
      refine ⟨hle, MultR.le_of_lt e1.multR ⟨0, by simp⟩ ?_, (hh.multR.sub hl.multR).le_of_lt e1.multR ?_⟩
      · linarith [e2.2, d2.2]
      · linarith [e2.1, d2.1]
  have core : ∀ {lo hi : F64}, Num lo → Num hi → toR lo = min (toR l) (toR h) → toR hi = max (toR l) (toR h) →
      Num (l + e) ∧ min (toR l) (toR h) ≤ toR (l + e) ∧ toR (l + e) ≤ max (toR l) (toR h) := by
    intro lo hi nlo nhi elo ehi
    have b1 : toR lo ≤ toR l + toR e := by
      rw [elo]
      rcases sides with ⟨s1, s2, s3⟩ | ⟨s1, s2, s3⟩
      · rw [min_eq_left s1]; linarith
      · rw [min_eq_right s1]; linarith
    have b2 : toR l + toR e ≤ toR hi := by
      rw [ehi]
      rcases sides with ⟨s1, s2, s3⟩ | ⟨s1, s2, s3⟩
      · rw [max_eq_right s1]; linarith
      · rw [max_eq_left s1]; linarith
    have k1 := le_key_add hl e1 nlo b1
    have k2 := key_add_le hl e1 nhi b2
    have kn : Num (l + e) := num_of_bounded (add_rep _ _) (ok_add_num hl e1) (by rw [← nlo.key]; exact k1) (by rw [← nhi.key]; exact k2)
    rw [kn.key, nlo.key, EReal.coe_le_coe_iff, elo] at k1
    rw [kn.key, nhi.key, EReal.coe_le_coe_iff, ehi] at k2
    exact ⟨kn, k1, k2⟩
  obtain ⟨kn, k1, k2⟩ : Num (l + e) ∧ min (toR l) (toR h) ≤ toR (l + e) ∧ toR (l + e) ≤ max (toR l) (toR h) := by
    rcases le_total (toR l) (toR h) with hle | hle
    · exact core hl hh (min_eq_left hle).symm (max_eq_right hle).symm
    · exact core hh hl (min_eq_right hle).symm (max_eq_left hle).symm
  refine ⟨kn, k1, k2, ?_⟩
  have hle : |toR l + toR e| ≤ max |toR l| |toR h| := by
    have a1 := le_max_left |toR l| |toR h|
    have a2 := le_max_right |toR l| |toR h|
    have p1 := neg_abs_le (toR l); have p2 := le_abs_self (toR l)
    have p3 := neg_abs_le (toR h); have p4 := le_abs_self (toR h)
    rw [abs_le]
    rcases sides with ⟨s1, s2, s3⟩ | ⟨s1, s2, s3⟩ <;> constructor <;> linarith
  have herr := (toR_add_of_num hl e1 kn).trans (mul_le_mul_of_nonneg_left hle u_pos.le)
  have hd : |toR h - toR l| ≤ 2 * max |toR l| |toR h| := by
    have := abs_sub (toR h) (toR l)
    linarith [le_max_left |toR l| |toR h|, le_max_right |toR l| |toR h|]
  have hd := mul_le_mul_of_nonneg_left hd u_pos.le
  rw [abs_le] at herr d2 ⊢
  have e52 : (2:ℝ) ^ (-52 : ℤ) = 2 * 2 ^ (-53 : ℤ) := by norm_num
  rw [e52]
  clear hη hη0 hu e52
  generalize (2:ℝ) ^ (-53 : ℤ) = u at *
  generalize (2:ℝ) ^ (-1075 : ℤ) = w at *
  constructor <;> linarith [herr.1, herr.2, e2.1, e2.2, d2.1, d2.2]

end F64

/-- **C115** (`center_2d`, `center_3d`, centers of gravity of segments): for finite doubles whose difference is in range the computed
middle is finite, between the ends in every dimension, and the exact one up to `2^-52` of the larger coordinate. -/
theorem c115_center :
    (∀ p q : Point2D F64, p.Num → q.Num → (∀ d, |toR (at2 q d) - toR (at2 p d)| ≤ 2 ^ (1023 : ℤ)) →
      (∀ d, IsMiddle (-52) (at2 p d) (at2 q d) (at2 (center2D p q) d)) ∧ (⟨p, q⟩ : LineSegment2D F64).centerOfGravity = some (center2D p q)) ∧
    (∀ p q : Point3D F64, p.Num → q.Num → (∀ d, |toR (at3 q d) - toR (at3 p d)| ≤ 2 ^ (1023 : ℤ)) →
      (∀ d, IsMiddle (-52) (at3 p d) (at3 q d) (at3 (center3D p q) d)) ∧ (⟨p, q⟩ : LineSegment3D F64).centerOfGravity = some (center3D p q)) := by
  constructor
  · intro p q hp hq h
    rw [Fin.forall_fin_two] at h
    refine ⟨?_, rfl⟩
    rw [Fin.forall_fin_two]
    exact ⟨mid_way hp.1 hq.1 h.1, mid_way hp.2 hq.2 h.2⟩
  · intro p q hp hq h
    rw [forall_fin3] at h
    refine ⟨?_, rfl⟩
    rw [forall_fin3]
    exact ⟨mid_way hp.1 hq.1 h.1, mid_way hp.2.1 hq.2.1 h.2.1, mid_way hp.2.2 hq.2.2 h.2.2⟩

/-- **C115** (`center_nd`): never panics nor fails for points of the same dimension, does not depend on the order, and for finite doubles up to
`2^1022` (see `c89_violated` beyond) it is finite, between the ends, and the exact middle up to `2^-53` of the larger coordinate. -/
theorem c115_center_nd :
    (∀ p q : Point2D F64, ∃ c, centerNd p q = some (.ok c) ∧ centerNd q p = some (.ok c) ∧
      (p.Num → q.Num → (∀ d, |toR (at2 p d)| ≤ 2 ^ (1022 : ℤ)) → (∀ d, |toR (at2 q d)| ≤ 2 ^ (1022 : ℤ)) →
        ∀ d, IsMiddle (-53) (at2 p d) (at2 q d) (at2 c d))) ∧
    (∀ p q : Point3D F64, ∃ c, centerNd p q = some (.ok c) ∧ centerNd q p = some (.ok c) ∧
      (p.Num → q.Num → (∀ d, |toR (at3 p d)| ≤ 2 ^ (1022 : ℤ)) → (∀ d, |toR (at3 q d)| ≤ 2 ^ (1022 : ℤ)) →
        ∀ d, IsMiddle (-53) (at3 p d) (at3 q d) (at3 c d))) := by
  constructor
  · intro p q
    refine ⟨⟨lit (1 / 2) * (p.x + q.x), lit (1 / 2) * (p.y + q.y)⟩, rfl, ?_, ?_⟩
    · rw [F64.add_comm_any p.x, F64.add_comm_any p.y]; rfl
    · intro hp hq h1 h2
      rw [Fin.forall_fin_two] at h1 h2 ⊢
      exact ⟨mid_sum hp.1 hq.1 h1.1 h2.1, mid_sum hp.2 hq.2 h1.2 h2.2⟩
  · intro p q
    refine ⟨⟨lit (1 / 2) * (p.x + q.x), lit (1 / 2) * (p.y + q.y), lit (1 / 2) * (p.z + q.z)⟩, rfl, ?_, ?_⟩
    · rw [F64.add_comm_any p.x, F64.add_comm_any p.y, F64.add_comm_any p.z]; rfl
    · intro hp hq h1 h2
      rw [forall_fin3] at h1 h2 ⊢
      exact ⟨mid_sum hp.1 hq.1 h1.1 h2.1, mid_sum hp.2.1 hq.2.1 h1.2.1 h2.2.1, mid_sum hp.2.2 hq.2.2 h1.2.2 h2.2.2⟩

/-- the points in the middle of `a` and `b` as `center_nd` gives them -/
def Spec.midNd (p q : Point3D F64) : Point3D F64 :=
  match centerNd p q with
  | some (.ok c) => c
  | _ => p

/-- **C115** (subdivision of meshes of doubles): for a well formed mesh of finite doubles up to `2^1022`, with `center_nd` as midpoint, the
subdivision succeeds, `c13_linear_subdivision` applies, every vertex of the result is finite, every new one is between the ends of its edge
and in the middle up to one rounding; so no bound of the coordinates is exceeded. -/
theorem c115_subdivide (m : TMesh (Point3D F64)) (hwf : m.WellFormed) (hn : ∀ p ∈ m.verts, p.Num ∧ ∀ d, |toR (at3 p d)| ≤ 2 ^ (1022 : ℤ)) :
    (∀ p q, centerNd p q = some (.ok (midNd p q)) ∧ midNd p q = midNd q p) ∧
    ∃ r : TMesh (Point3D F64), TMesh.linear midNd m = some (.ok r) ∧ (∀ v < m.numVertices, r.verts[v]? = m.verts[v]?) ∧
      (∀ v, m.numVertices ≤ v → v < r.numVertices → ∃ (i j : Nat) (p q c : Point3D F64), SubdivideSpec.IsEdge m i j ∧ m.verts[i]? = some p ∧
        m.verts[j]? = some q ∧ r.verts[v]? = some c ∧ ∀ d, IsMiddle (-53) (at3 p d) (at3 q d) (at3 c d)) ∧
      ∀ (d : Fin 3) (lo hi : ℝ), (∀ p ∈ m.verts, lo ≤ toR (at3 p d) ∧ toR (at3 p d) ≤ hi) →
        ∀ c ∈ r.verts, lo ≤ toR (at3 c d) ∧ toR (at3 c d) ≤ hi := by
  have hc : ∀ p q, centerNd p q = some (.ok (midNd p q)) ∧ midNd p q = midNd q p := by
    intro p q
    obtain ⟨c, e1, e2, -⟩ := c115_center_nd.2 p q
    have f1 : midNd p q = c := by unfold midNd; rw [e1]
    have f2 : midNd q p = c := by unfold midNd; rw [e2]
    rw [f1, f2]
    exact ⟨e1, rfl⟩
  refine ⟨hc, ?_⟩
  obtain ⟨r, mid, e, ⟨new, hnew⟩, -, -, -, hmid, -, hsurj, -⟩ := c13_linear_subdivision midNd (fun p q => (hc p q).2) m hwf
  have key : ∀ v, m.numVertices ≤ v → v < r.numVertices → ∃ (i j : Nat) (p q c : Point3D F64), SubdivideSpec.IsEdge m i j ∧ m.verts[i]? = some p ∧
        m.verts[j]? = some q ∧ r.verts[v]? = some c ∧ ∀ d, IsMiddle (-53) (at3 p d) (at3 q d) (at3 c d) := by
    intro v h1 h2
    obtain ⟨i, j, he, rfl⟩ := hsurj v h1 h2
    obtain ⟨-, p, q, hp, hq, hpq⟩ := hmid i j he
    obtain ⟨c, e1, -, hM⟩ := c115_center_nd.2 p q
    have f1 : midNd p q = c := by unfold midNd; rw [e1]
    obtain ⟨np, bp⟩ := hn p (List.mem_of_getElem? hp)
    obtain ⟨nq, bq⟩ := hn q (List.mem_of_getElem? hq)
    exact ⟨i, j, p, q, c, he, hp, hq, by rw [hpq, f1], hM np nq bp bq⟩
  refine ⟨r, e, ?_, key, ?_⟩
  · intro v hv
    rw [hnew, List.getElem?_append_left hv]
  · intro d lo hi hb c hcm
    obtain ⟨v, hv⟩ := List.getElem?_of_mem hcm
    rcases Nat.lt_or_ge v m.numVertices with h | h
    · rw [hnew, List.getElem?_append_left h] at hv
      exact hb c (List.mem_of_getElem? hv)
    · obtain ⟨i, j, p, q, c', -, hp, hq, hc', hM⟩ := key v h (List.getElem?_eq_some_iff.1 hv).1
      rw [hv] at hc'
      obtain rfl := Option.some.inj hc'
      obtain ⟨p1, p2⟩ := hb p (List.mem_of_getElem? hp)
      obtain ⟨q1, q2⟩ := hb q (List.mem_of_getElem? hq)
      exact ⟨(le_min p1 q1).trans (hM d).2.1, (hM d).2.2.1.trans (max_le p2 q2)⟩

/-- the hypotheses are met -/
example : ∃ m : TMesh (Point3D F64), m.WellFormed ∧ m.numFaces = 1 ∧ (∀ p ∈ m.verts, p.Num ∧ ∀ d, |toR (at3 p d)| ≤ 2 ^ (1022 : ℤ)) ∧
    ∃ r, TMesh.linear midNd m = some (.ok r) ∧ r.numVertices = 6 ∧ r.verts[3]? = some ⟨f (3 / 2), f (1 / 2), f 0⟩ := by
  obtain ⟨n1, e1⟩ := ex_num 1 false 1 (by decide +kernel)
  obtain ⟨n2, e2⟩ := ex_num 2 false 2 (by decide +kernel)
  obtain ⟨n0, e0⟩ := ex_num 0 false 0 (by decide +kernel)
  have b : ∀ x : ℝ, |x| ≤ 2 → |x| ≤ 2 ^ (1022 : ℤ) := fun x hx =>
    hx.trans (le_trans (by norm_num) (zpow_le_zpow_right₀ one_le_two (by norm_num : (1 : ℤ) ≤ 1022)))
  have v1 : |toR (f 1)| ≤ 2 ^ (1022 : ℤ) := b _ (by rw [e1]; norm_num [val])
  have v2 : |toR (f 2)| ≤ 2 ^ (1022 : ℤ) := b _ (by rw [e2]; norm_num [val])
  have v0 : |toR (f 0)| ≤ 2 ^ (1022 : ℤ) := b _ (by rw [e0]; norm_num [val])
  have hwf : TMesh.WellFormed (⟨[⟨f 1, f 0, f 0⟩, ⟨f 2, f 1, f 0⟩, ⟨f 0, f 2, f 1⟩], [⟨0, 1, 2⟩]⟩ : TMesh (Point3D F64)) := by
    intro g hg
    simp only [List.mem_singleton] at hg
    subst hg
    simp
  refine ⟨_, hwf, rfl, ?_, ?_⟩
  · intro p hp
    simp only [List.mem_cons, List.not_mem_nil, or_false] at hp
    rcases hp with rfl | rfl | rfl <;> (rw [forall_fin3])
    · exact ⟨⟨n1, n0, n0⟩, v1, v0, v0⟩
    · exact ⟨⟨n2, n1, n0⟩, v2, v1, v0⟩
    · exact ⟨⟨n0, n2, n1⟩, v0, v2, v1⟩
  · refine ⟨⟨[⟨f 1, f 0, f 0⟩, ⟨f 2, f 1, f 0⟩, ⟨f 0, f 2, f 1⟩, ⟨f (3 / 2), f (1 / 2), f 0⟩, ⟨f 1, f (3 / 2), f (1 / 2)⟩,
      ⟨f (1 / 2), f 1, f (1 / 2)⟩], [⟨0, 3, 5⟩, ⟨3, 1, 4⟩, ⟨3, 4, 5⟩, ⟨5, 4, 2⟩]⟩, ?_, rfl, rfl⟩
    have g1 : midNd ⟨f 1, f 0, f 0⟩ ⟨f 2, f 1, f 0⟩ = ⟨f (3 / 2), f (1 / 2), f 0⟩ := by decide +kernel
    have g2 : midNd ⟨f 2, f 1, f 0⟩ ⟨f 0, f 2, f 1⟩ = ⟨f 1, f (3 / 2), f (1 / 2)⟩ := by decide +kernel
    have g3 : midNd ⟨f 0, f 2, f 1⟩ ⟨f 1, f 0, f 0⟩ = ⟨f (1 / 2), f 1, f (1 / 2)⟩ := by decide +kernel
    rw [← g1, ← g2, ← g3]
    rfl

end R3D
