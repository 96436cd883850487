import Verif.Props.BoxFloat
import Verif.Props.CompressFloat
import Verif.Props.ClusterVertices
import Verif.Props.RotFloat
/-
C116: `cluster_vertices` of meshes of doubles.
-/
namespace R3D
open Scalar MeshAlgoSpec Spec F64

namespace F64

/-- a computed width by the cluster size -/
theorem quot1 {d s : F64} {w : ℝ} (hd : Num d) (hs : Num s) (s0 : 0 < toR s) (w0 : 0 ≤ w) (hw : w ≤ 2 ^ 63 * toR s)
    (he : |toR d - w| ≤ 2 ^ (-53 : ℤ) * w) :
    Num (d / s) ∧ 0 ≤ toR (d / s) ∧ toR (d / s) < 2 ^ 64 - 1 ∧ |toR (d / s) - w / toR s| ≤ 2 ^ (-51 : ℤ) * (w / toR s) + 2 ^ (-1075 : ℤ) := by
  have hu := u_small
  have hA0 : 0 ≤ w / toR s := div_nonneg w0 s0.le
  have hA : w / toR s ≤ 2 ^ 63 := by rw [div_le_iff₀ s0]; exact hw
  have he' : |toR d / toR s - w / toR s| ≤ 2 ^ (-53 : ℤ) * (w / toR s) := by
    rw [← sub_div, abs_div, abs_of_pos s0, div_le_iff₀ s0, mul_assoc, div_mul_cancel₀ _ s0.ne']
    exact he
  obtain ⟨f1, f2⟩ := abs_le.1 he'
  rw [hu] at f1 f2
  have hB0 : 0 ≤ toR d / toR s := by linarith
  have hB : toR d / toR s ≤ 2 ^ (1023 : ℤ) := by
    have : (2:ℝ) ^ (70 : ℤ) ≤ 2 ^ (1023 : ℤ) := zpow_le_zpow_right₀ one_le_two (by norm_num)
    refine le_trans ?_ this
    norm_num at hA ⊢
    linarith
  obtain ⟨n, q⟩ := toR_div hd hs s0.ne' (by rw [abs_of_nonneg hB0]; exact hB)
  rw [abs_of_nonneg hB0, hu] at q
  have hη := eta_half
  have hη0 := eta_pos
  have h75 : (2:ℝ) ^ (-1075 : ℤ) ≤ 1 := zpow_le_one_of_nonpos₀ one_le_two (by norm_num)
  obtain ⟨q1, q2⟩ := abs_le.1 q
  refine ⟨n, ?_, ?_, ?_⟩
  · refine MultR.le_of_lt ⟨0, by simp⟩ n.multR ?_
    linarith
  · norm_num at hA ⊢
    linarith
  · rw [show (2:ℝ) ^ (-51 : ℤ) = 4 / 9007199254740992 by norm_num, abs_le]
    constructor <;> linarith

/-- the cell of a number of at least the border -/
theorem cell1 {x l s : F64} (hx : Num x) (hl : Num l) (hs : Num s) (s0 : 0 < toR s) (hle : toR l ≤ toR x)
    (hb : toR x - toR l ≤ 2 ^ (1023 : ℤ)) (hw : toR x - toR l ≤ 2 ^ 63 * toR s) :
    ∃ A : ℝ, 0 ≤ A ∧ Scalar.toNatSat (2 ^ 64 - 1) ((x - l) / s) = ⌊A⌋₊ ∧
      |A - (toR x - toR l) / toR s| ≤ 2 ^ (-51 : ℤ) * ((toR x - toR l) / toR s) + 2 ^ (-1075 : ℤ) := by
  have h0 : 0 ≤ toR x - toR l := by linarith
  obtain ⟨nd, ed⟩ := toR_sub hx hl ((abs_of_nonneg h0).trans_le hb)
  rw [abs_of_nonneg h0] at ed
  obtain ⟨n, p, lt, e⟩ := quot1 nd hs s0 h0 hw ed
  refine ⟨_, p, ?_, e⟩
  rw [toNatSat_num n p, min_eq_right]
  have h1 := Nat.floor_le p
  have h2 : ((⌊toR ((x - l) / s)⌋₊ : ℕ) : ℝ) < ((2 ^ 64 - 1 : ℕ) : ℝ) := by
    refine h1.trans_lt (lt.trans_le (le_of_eq ?_))
    norm_num
  exact (Nat.cast_lt.1 h2).le

end F64

/-- where vertices are along the axis `d`: `l` is the smallest coordinate -/
def Spec.IsLow (pts : List (Point3D F64)) (d : Fin 3) (l : ℝ) : Prop :=
  (∃ p ∈ pts, toR (at3 p d) = l) ∧ ∀ p ∈ pts, l ≤ toR (at3 p d)

/-- `x` is inside of the cell `k` of the size `s` starting at `l`, off its borders by the rounding errors -/
def Spec.InCell (l s x : ℝ) (k : ℕ) : Prop :=
  k + 2 ^ (-50 : ℤ) * (k + 1) ≤ (x - l) / s ∧ (x - l) / s ≤ k + 1 - 2 ^ (-50 : ℤ) * (k + 1)

/-- **C116**: `cluster_vertices` of a well formed mesh of doubles of at most `M`, with a cluster size that is positive and at least `M` by `2^62`.

* it never panics
* if the vertices agree along some axis: `BoundingBoxMissing`
* otherwise, if along some axis they are less than two clusters apart: `ClusterTooBig`
* if they are at least two clusters apart along all axes: a result
* a result has the faces of the mesh, in order, with every corner `v` moved to the vertex `ρ v`, without those of which corners met. No
  corner moves more than `size` and the rounding errors. Vertices clearly in the same cell are moved to the same vertex. -/
theorem c116_cluster [DecidableEq F64] (m : TMesh (Point3D F64)) (hwf : m.WellFormed) (size : F64) (M : ℝ) (hM : M ≤ 2 ^ (1000 : ℤ))
    (hn : ∀ p ∈ m.verts, p.Num ∧ ∀ d, |toR (at3 p d)| ≤ M) (hs : F64.Num size) (s0 : 0 < toR size) (hbig : M ≤ 2 ^ 62 * toR size) :
    ∃ res, clusterVertices m size = some res ∧
      ((∃ d, ∀ p ∈ m.verts, ∀ q ∈ m.verts, toR (at3 p d) = toR (at3 q d)) → res = .error .BoundingBoxMissing) ∧
      ((∀ d, ∃ p ∈ m.verts, ∃ q ∈ m.verts, toR (at3 p d) ≠ toR (at3 q d)) →
        (∃ d, ∀ p ∈ m.verts, ∀ q ∈ m.verts, toR (at3 q d) - toR (at3 p d) ≤ (2 - 2 ^ (-49 : ℤ)) * toR size) → res = .error .ClusterTooBig) ∧
      ((∀ d, ∃ p ∈ m.verts, ∃ q ∈ m.verts, (2 + 2 ^ (-49 : ℤ)) * toR size ≤ toR (at3 q d) - toR (at3 p d)) → ∃ r, res = .ok r) ∧
      ∀ r, res = .ok r → ∃ ρ : Nat → Nat, (∀ v < m.numVertices, ρ v < m.numVertices) ∧ r.WellFormed ∧ r.verts.Nodup ∧
        (∀ p ∈ r.verts, p ∈ m.verts) ∧
        cornerPositions r = (m.faces.map fun f => (m.verts[ρ f.a]?, m.verts[ρ f.b]?, m.verts[ρ f.c]?)).filter pairwiseDistinct ∧
        (∀ v p q, m.verts[v]? = some p → m.verts[ρ v]? = some q →
          ∀ d, |toR (at3 q d) - toR (at3 p d)| ≤ (1 + 2 ^ (-50 : ℤ)) * toR size + 2 ^ (-49 : ℤ) * M) ∧
        ∀ v w p q, m.verts[v]? = some p → m.verts[w]? = some q →
          (∀ d, ∃ l k, IsLow m.verts d l ∧ InCell l (toR size) (toR (at3 p d)) k ∧ InCell l (toR size) (toR (at3 q d)) k) → ρ v = ρ w := by
  have hnum : ∀ p ∈ m.verts, ∀ d, F64.Num (at3 p d) := by
    intro p hp
    rw [forall_fin3]
    exact (hn p hp).1
  have hok : ∀ p ∈ m.verts, ∀ d, LawfulScalar.ok (at3 p d) := fun p hp d => (hnum p hp d).ok
  have hkey : ∀ p ∈ m.verts, ∀ d, LawfulScalar.key (at3 p d) = ((toR (at3 p d) : ℝ) : EReal) := fun p hp d => (hnum p hp d).key
  obtain ⟨c1, c2, c3⟩ := c16_from_iterator_3d m.verts hok
  by_cases hflat : ∃ d, ∀ p ∈ m.verts, ∀ q ∈ m.verts, toR (at3 p d) = toR (at3 q d)
  · refine ⟨.error .BoundingBoxMissing, ?_, fun _ => rfl, ?_, ?_, ?_⟩
    · have : ∃ e, BoundingBox3D.fromIterator m.verts = .error e := by
        rcases Nat.lt_or_ge m.verts.length 2 with h | h
        · exact ⟨_, c1 h⟩
        · obtain ⟨d, hd⟩ := hflat
          refine ⟨_, c2 h ⟨d, fun p hp q hq => ?_⟩⟩
          rw [hkey p hp, hkey q hq, hd p hp q hq]
      obtain ⟨e, he⟩ := this
      unfold clusterVertices
      rw [he]
    · intro h
      obtain ⟨d, hd⟩ := hflat
      obtain ⟨p, hp, q, hq, hne⟩ := h d
      exact absurd (hd p hp q hq) hne
    · intro h
      obtain ⟨d, hd⟩ := hflat
      obtain ⟨p, hp, q, hq, hle⟩ := h d
      rw [hd p hp q hq, sub_self] at hle
      have : (0:ℝ) < (2 + 2 ^ (-49 : ℤ)) * toR size := mul_pos (by positivity) s0
      linarith
    · intro r hr; cases hr
  · have hdiff : ∀ d, ∃ p ∈ m.verts, ∃ q ∈ m.verts, toR (at3 p d) ≠ toR (at3 q d) := by
      intro d
      by_contra hcon
      push Not at hcon
      exact hflat ⟨d, hcon⟩
    have hlen : 2 ≤ m.verts.length := by
      obtain ⟨p, hp, q, hq, hne⟩ := hdiff 0
      match hv : m.verts with
      | [] => rw [hv] at hp; simp at hp
      | [a] =>
        rw [hv] at hp hq
        simp only [List.mem_singleton] at hp hq
        rw [hp, hq] at hne
        exact absurd rfl hne
      | a :: b :: l => simp
    obtain ⟨bb, ebb, -, hmem, htight, -⟩ := c3 hlen (fun d => by
      obtain ⟨p, hp, q, hq, hne⟩ := hdiff d
      refine ⟨p, hp, q, hq, ?_⟩
      rw [hkey p hp, hkey q hq]
      exact fun h => hne (EReal.coe_injective h))
    -- the corners of the box
    have hlo : ∀ d, F64.Num (at3 bb.min d) ∧ IsLow m.verts d (toR (at3 bb.min d)) := by
      intro d
      obtain ⟨⟨p, hp, e⟩, -⟩ := htight d
      have e : at3 bb.min d = at3 p d := e
      refine ⟨by rw [e]; exact hnum p hp d, ⟨p, hp, by rw [e]⟩, fun q hq => ?_⟩
      have := (hmem q hq d).1
      rw [show (box3 bb).lo d = at3 bb.min d from rfl, e, hkey p hp, hkey q hq, EReal.coe_le_coe_iff] at this
      rwa [e]
    have hhi : ∀ d, F64.Num (at3 bb.max d) ∧ (∃ p ∈ m.verts, toR (at3 p d) = toR (at3 bb.max d)) ∧
        ∀ p ∈ m.verts, toR (at3 p d) ≤ toR (at3 bb.max d) := by
      intro d
      obtain ⟨-, ⟨p, hp, e⟩⟩ := htight d
      have e : at3 bb.max d = at3 p d := e
      refine ⟨by rw [e]; exact hnum p hp d, ⟨p, hp, by rw [e]⟩, fun q hq => ?_⟩
      have := (hmem q hq d).2
      rw [show (box3 bb).hi d = at3 bb.max d from rfl, e, hkey p hp, hkey q hq, EReal.coe_le_coe_iff] at this
      rwa [e]
    have hlt : ∀ d, toR (at3 bb.min d) < toR (at3 bb.max d) := by
      intro d
      obtain ⟨p, hp, q, hq, hne⟩ := hdiff d
      have a1 := (hlo d).2.2 p hp
      have a2 := (hlo d).2.2 q hq
      have a3 := (hhi d).2.2 p hp
      have a4 := (hhi d).2.2 q hq
      rcases lt_or_gt_of_ne hne with h | h <;> linarith
    have hwid : ∀ d, toR (at3 bb.max d) - toR (at3 bb.min d) ≤ 2 * M := by
      intro d
      obtain ⟨p, hp, ep⟩ := (hhi d).2.1
      obtain ⟨q, hq, eq⟩ := (hlo d).2.1
      rw [← ep, ← eq]
      have := (abs_le.1 ((hn p hp).2 d)).2
      have := (abs_le.1 ((hn q hq).2 d)).1
      linarith
    have hM2 : 2 * M ≤ 2 ^ (1023 : ℤ) := by
      have : (2:ℝ) ^ (1023 : ℤ) = 2 ^ 23 * 2 ^ (1000 : ℤ) := by rw [← zpow_natCast, ← zpow_add₀ two_ne_zero]; norm_num
      have h0 : (0:ℝ) < 2 ^ (1000 : ℤ) := zpow_pos two_pos _
      rw [this]; clear this
      generalize (2:ℝ) ^ (1000 : ℤ) = t at *
      norm_num; linarith
    have hsat : 2 * M ≤ 2 ^ 63 * toR size := by
      rw [show (2:ℝ) ^ 63 = 2 * 2 ^ 62 by norm_num]; linarith
    -- the sizes
    obtain ⟨ex, qx⟩ := size_some (hlo 0).1 (hhi 0).1 (hlt 0)
    obtain ⟨ey, qy⟩ := size_some (hlo 1).1 (hhi 1).1 (hlt 1)
    obtain ⟨ez, qz⟩ := size_some (hlo 2).1 (hhi 2).1 (hlt 2)
    simp only [at3_zero, at3_one, at3_two] at ex ey ez qx qy qz
    obtain ⟨r1, r2⟩ := c85_result m hwf size bb _ _ _ ebb ex ey ez
    simp only [List.mem_cons, List.not_mem_nil, or_false, exists_eq_or_imp, exists_eq_left, forall_eq_or_imp, forall_eq] at r1 r2
    have hcount : ∀ {l h : F64}, IsSize l h (Scalar.abs (h - l)) → toR l < toR h → toR h - toR l ≤ 2 * M →
        ((2 + 2 ^ (-49 : ℤ)) * toR size ≤ toR h - toR l → 2 ≤ Scalar.toNatSat (2 ^ 64 - 1) (Scalar.abs (h - l) / size)) ∧
        (toR h - toR l ≤ (2 - 2 ^ (-49 : ℤ)) * toR size → Scalar.toNatSat (2 ^ 64 - 1) (Scalar.abs (h - l) / size) < 2) := by
      intro l h q hlh hw
      obtain ⟨nd, ed⟩ := q.2 (hw.trans hM2)
      obtain ⟨nq, q0, q1, qe⟩ := quot1 nd hs s0 (by linarith) (hw.trans hsat) ed
      rw [toNatSat_num nq q0]
      have h75 : (2:ℝ) ^ (-1075 : ℤ) ≤ 2 ^ (-51 : ℤ) := zpow_le_zpow_right₀ one_le_two (by norm_num)
      generalize (2:ℝ) ^ (-1075 : ℤ) = η at *
      obtain ⟨qe1, qe2⟩ := abs_le.1 qe
      constructor
      · intro hle
        rw [← le_div_iff₀ s0] at hle
        refine le_min (by norm_num) ?_
        rw [Nat.le_floor_iff q0]
        norm_num at h75 qe1 hle ⊢
        generalize (toR h - toR l) / toR size = A at *
        linarith
      · intro hle
        rw [← div_le_iff₀ s0] at hle
        refine lt_of_le_of_lt (min_le_right _ _) ?_
        rw [Nat.floor_lt q0]
        norm_num at h75 qe2 hle ⊢
        generalize (toR h - toR l) / toR size = A at *
        linarith
    have fx := hcount qx (hlt 0) (hwid 0)
    have fy := hcount qy (hlt 1) (hwid 1)
    have fz := hcount qz (hlt 2) (hwid 2)
    -- all cells
    have hcell : ∀ p ∈ m.verts, ∀ d, ∃ A : ℝ, 0 ≤ A ∧ Scalar.toNatSat (2 ^ 64 - 1) ((at3 p d - at3 bb.min d) / size) = ⌊A⌋₊ ∧
        |A - (toR (at3 p d) - toR (at3 bb.min d)) / toR size| ≤
          2 ^ (-51 : ℤ) * ((toR (at3 p d) - toR (at3 bb.min d)) / toR size) + 2 ^ (-1075 : ℤ) := by
      intro p hp d
      have h1 : toR (at3 p d) - toR (at3 bb.min d) ≤ 2 * M := by linarith [(hhi d).2.2 p hp, hwid d]
      exact cell1 (hnum p hp d) (hlo d).1 hs s0 ((hlo d).2.2 p hp) (h1.trans hM2) (h1.trans hsat)
    have hcl : ∀ p, clusterOf bb.min size p = (Scalar.toNatSat (2 ^ 64 - 1) ((at3 p 0 - at3 bb.min 0) / size),
        Scalar.toNatSat (2 ^ 64 - 1) ((at3 p 1 - at3 bb.min 1) / size), Scalar.toNatSat (2 ^ 64 - 1) ((at3 p 2 - at3 bb.min 2) / size)) :=
      fun p => rfl
    by_cases hbigc : 2 ≤ Scalar.toNatSat (2 ^ 64 - 1) (Scalar.abs (bb.max.x - bb.min.x) / size) ∧
        2 ≤ Scalar.toNatSat (2 ^ 64 - 1) (Scalar.abs (bb.max.y - bb.min.y) / size) ∧
        2 ≤ Scalar.toNatSat (2 ^ 64 - 1) (Scalar.abs (bb.max.z - bb.min.z) / size)
    · obtain ⟨r, ρ, er, hlast, w1, w2, w3, w4⟩ := r2 hbigc
      have hl' : (m.verts.map (clusterOf bb.min size)).length = m.verts.length := by simp
      refine ⟨.ok r, er, fun h => absurd h hflat, ?_, fun _ => ⟨r, rfl⟩, ?_⟩
      · rintro - ⟨d, hd⟩
        exfalso
        have hd' : toR (at3 bb.max d) - toR (at3 bb.min d) ≤ (2 - 2 ^ (-49 : ℤ)) * toR size := by
          obtain ⟨p, hp, ep⟩ := (hhi d).2.1
          obtain ⟨q, hq, eq⟩ := (hlo d).2.1
          rw [← ep, ← eq]
          exact hd q hq p hp
        obtain ⟨b1, b2, b3⟩ := hbigc
        revert hd'
        revert d
        rw [forall_fin3]
        exact ⟨fun _ h => absurd (fx.2 h) (not_lt.2 b1), fun _ h => absurd (fy.2 h) (not_lt.2 b2), fun _ h => absurd (fz.2 h) (not_lt.2 b3)⟩
      · intro r' hr'
        obtain rfl : r = r' := by injection hr'
        refine ⟨ρ, fun v hv => ?_, w1, w2, w3, w4, ?_, ?_⟩
        · have := (hlast v (by rw [hl']; exact hv)).1
          rwa [hl'] at this
        · intro v p q hp hq d
          have hv : v < m.verts.length := (List.getElem?_eq_some_iff.1 hp).1
          have hpm := List.mem_of_getElem? hp
          have hqm := List.mem_of_getElem? hq
          have e := (hlast v (by rw [hl']; exact hv)).2.1
          rw [List.getElem?_map, List.getElem?_map, hp, hq, Option.map_some, Option.map_some, hcl, hcl] at e
          simp only [Option.some.injEq, Prod.mk.injEq] at e
          have e' : ∀ d, Scalar.toNatSat (2 ^ 64 - 1) ((at3 q d - at3 bb.min d) / size) =
              Scalar.toNatSat (2 ^ 64 - 1) ((at3 p d - at3 bb.min d) / size) := by rw [forall_fin3]; exact e
          have e := e' d
          obtain ⟨A, A0, eA, hA⟩ := hcell p hpm d
          obtain ⟨B, B0, eB, hB⟩ := hcell q hqm d
          rw [eA, eB] at e
          have hAB : |B - A| ≤ 1 := by
            have f1 := Nat.floor_le A0; have f2 := Nat.lt_floor_add_one A
            have f3 := Nat.floor_le B0; have f4 := Nat.lt_floor_add_one B
            rw [e] at f3 f4
            rw [abs_le]; constructor <;> linarith
          have g : ∀ x ∈ m.verts, (toR (at3 x d) - toR (at3 bb.min d)) / toR size ≤ 2 * M / toR size := by
            intro x hx
            refine div_le_div_of_nonneg_right ?_ s0.le
            linarith [(hhi d).2.2 x hx, hwid d]
          have g1 := g p hpm
          have g2 := g q hqm
          have ee : (toR (at3 q d) - toR (at3 p d)) = toR size * ((toR (at3 q d) - toR (at3 bb.min d)) / toR size -
              (toR (at3 p d) - toR (at3 bb.min d)) / toR size) := by field_simp; ring
          have h75 : (2:ℝ) ^ (-1075 : ℤ) ≤ 2 ^ (-51 : ℤ) := zpow_le_zpow_right₀ one_le_two (by norm_num)
          generalize (2:ℝ) ^ (-1075 : ℤ) = η at *
          have hM' : toR size * (2 * M / toR size) = 2 * M := by field_simp
          rw [ee, abs_mul, abs_of_pos s0]
          generalize (toR (at3 q d) - toR (at3 bb.min d)) / toR size = a at *
          generalize (toR (at3 p d) - toR (at3 bb.min d)) / toR size = b at *
          have hab : |a - b| ≤ 1 + 2 ^ (-50 : ℤ) + 2 ^ (-50 : ℤ) * (2 * M / toR size) := by
            generalize 2 * M / toR size = W at *
            norm_num at hA hB h75 ⊢
            obtain ⟨x1, x2⟩ := abs_le.1 hA; obtain ⟨x3, x4⟩ := abs_le.1 hB; obtain ⟨x5, x6⟩ := abs_le.1 hAB
            rw [abs_le]
            constructor <;> linarith
          refine (mul_le_mul_of_nonneg_left hab s0.le).trans (le_of_eq ?_)
          calc toR size * (1 + 2 ^ (-50 : ℤ) + 2 ^ (-50 : ℤ) * (2 * M / toR size)) =
              (1 + 2 ^ (-50 : ℤ)) * toR size + 2 ^ (-50 : ℤ) * (toR size * (2 * M / toR size)) := by ring
            _ = _ := by rw [hM']; norm_num; ring
        · intro v w p q hp hq hin
          have hv : v < m.verts.length := (List.getElem?_eq_some_iff.1 hp).1
          have hw : w < m.verts.length := (List.getElem?_eq_some_iff.1 hq).1
          have hpm := List.mem_of_getElem? hp
          have hqm := List.mem_of_getElem? hq
          have key : ∀ x ∈ m.verts, ∀ d l k, IsLow m.verts d l → InCell l (toR size) (toR (at3 x d)) k →
              Scalar.toNatSat (2 ^ 64 - 1) ((at3 x d - at3 bb.min d) / size) = k := by
            intro x hx d l k hl hi
            have el : l = toR (at3 bb.min d) := by
              obtain ⟨a, ha, ea⟩ := hl.1
              obtain ⟨b, hb, eb⟩ := (hlo d).2.1
              have := hl.2 b hb
              have := (hlo d).2.2 a ha
              linarith
            subst el
            obtain ⟨A, A0, eA, hA⟩ := hcell x hx d
            obtain ⟨i1, i2⟩ := hi
            rw [eA, Nat.floor_eq_iff A0]
            have h75 : (2:ℝ) ^ (-1075 : ℤ) ≤ 2 ^ (-53 : ℤ) := zpow_le_zpow_right₀ one_le_two (by norm_num)
            generalize (2:ℝ) ^ (-1075 : ℤ) = η at *
            generalize (toR (at3 x d) - toR (at3 bb.min d)) / toR size = a at *
            obtain ⟨x1, x2⟩ := abs_le.1 hA
            have hk : (0:ℝ) ≤ k := Nat.cast_nonneg k
            norm_num at x1 x2 i1 i2 h75
            constructor <;> linarith
          have ec : (m.verts.map (clusterOf bb.min size))[v]? = (m.verts.map (clusterOf bb.min size))[w]? := by
            rw [List.getElem?_map, List.getElem?_map, hp, hq, Option.map_some, Option.map_some, hcl, hcl]
            have : ∀ d, Scalar.toNatSat (2 ^ 64 - 1) ((at3 p d - at3 bb.min d) / size) =
                Scalar.toNatSat (2 ^ 64 - 1) ((at3 q d - at3 bb.min d) / size) := by
              intro d
              obtain ⟨l, k, hl, h1, h2⟩ := hin d
              rw [key p hpm d l k hl h1, key q hqm d l k hl h2]
            rw [this 0, this 1, this 2]
          have l1 := hlast v (by rw [hl']; exact hv)
          have l2 := hlast w (by rw [hl']; exact hw)
          exact le_antisymm (l2.2.2 _ (by rw [l1.2.1, ec])) (l1.2.2 _ (by rw [l2.2.1, ec]))
    · refine ⟨.error .ClusterTooBig, r1 ?_, fun h => absurd h hflat, fun _ _ => rfl, ?_, fun r hr => by cases hr⟩
      · simp only [not_and_or, not_le] at hbigc
        exact hbigc
      · intro h
        exfalso
        apply hbigc
        have h' : ∀ d, (2 + 2 ^ (-49 : ℤ)) * toR size ≤ toR (at3 bb.max d) - toR (at3 bb.min d) := by
          intro d
          obtain ⟨p, hp, q, hq, hle⟩ := h d
          linarith [(hlo d).2.2 p hp, (hhi d).2.2 q hq]
        exact ⟨fx.1 (h' 0), fy.1 (h' 1), fz.1 (h' 2)⟩

/-- **C116** without the lower bound of the cluster size: corners about `2^70` clusters apart meet, a triangle disappears. -/
theorem c116_violated_small : ∃ (m r : TMesh (Point3D F64)), m.WellFormed ∧ m.faces = [⟨1, 2, 3⟩] ∧ m.verts.Nodup ∧
    clusterVertices m (f (1 / 2 ^ 70)) = some (.ok r) ∧ r.faces = [] :=
  ⟨⟨[⟨f 0, f 0, f 0⟩, ⟨f 1, f 2, f 3⟩, ⟨f 2, f 3, f 1⟩, ⟨f 3, f 1, f 2⟩], [⟨1, 2, 3⟩]⟩, ⟨[⟨f 3, f 1, f 2⟩], []⟩, by
    intro g hg
    simp only [List.mem_cons, List.not_mem_nil, or_false] at hg
    subst hg
    simp, rfl, by decide +kernel, by decide +kernel, rfl⟩

/-- the hypotheses of `c116_cluster` are met -/
example : ∃ m : TMesh (Point3D F64), m.WellFormed ∧ m.numFaces = 1 ∧ (∀ p ∈ m.verts, p.Num ∧ ∀ d, |toR (at3 p d)| ≤ 4) ∧ F64.Num (f 1) ∧ 0 < toR (f 1) ∧
    (4:ℝ) ≤ 2 ^ 62 * toR (f 1) ∧ ∀ d, ∃ p ∈ m.verts, ∃ q ∈ m.verts, (2 + 2 ^ (-49 : ℤ)) * toR (f 1) ≤ toR (at3 q d) - toR (at3 p d) := by
  obtain ⟨n0, e0⟩ := ex_num 0 false 0 (by decide +kernel)
  obtain ⟨n1, e1⟩ := ex_num 1 false 1 (by decide +kernel)
  obtain ⟨n4, e4⟩ := ex_num 4 false 4 (by decide +kernel)
  have v0 : toR (f 0) = 0 := by rw [e0]; norm_num [val]
  have v1 : toR (f 1) = 1 := by rw [e1]; norm_num [val]
  have v4 : toR (f 4) = 4 := by rw [e4]; norm_num [val]
  refine ⟨⟨[⟨f 0, f 0, f 0⟩, ⟨f 4, f 4, f 4⟩, ⟨f 0, f 4, f 0⟩], [⟨0, 1, 2⟩]⟩, ?_, rfl, ?_, n1, by rw [v1]; norm_num, by rw [v1]; norm_num, ?_⟩
  · intro g hg
    simp only [List.mem_singleton] at hg
    subst hg
    simp
  · intro p hp
    simp only [List.mem_cons, List.not_mem_nil, or_false] at hp
    rcases hp with rfl | rfl | rfl <;> rw [forall_fin3] <;> simp only [at3_zero, at3_one, at3_two, v0, v4]
    · exact ⟨⟨n0, n0, n0⟩, by norm_num⟩
    · exact ⟨⟨n4, n4, n4⟩, by norm_num⟩
    · exact ⟨⟨n0, n4, n0⟩, by norm_num⟩
  · intro d
    refine ⟨⟨f 0, f 0, f 0⟩, by simp, ⟨f 4, f 4, f 4⟩, by simp, ?_⟩
    revert d
    rw [forall_fin3]
    simp only [at3_zero, at3_one, at3_two, v0, v4, v1]
    norm_num

end R3D
