import Verif.Props.RayFloat
import Verif.Props.VertexNormals
/-!
C113: normals of meshes of doubles.
-/
namespace R3D
open Scalar Spec F64

/-! ### specification -/

namespace Spec
/-- a face with finite corners that is not too thin: with edges of size `E`, twice its area is at least `E² / K` -/
def GoodFace (K : ℝ) (a b c : Point3D F64) : Prop :=
  a.Num ∧ b.Num ∧ c.Num ∧ ∃ E : ℝ, 2 ^ (-100 : ℤ) ≤ E ∧ E ≤ 2 ^ (100 : ℤ) ∧
    (∀ d, |toR (at3 b d) - toR (at3 a d)| ≤ E ∧ |toR (at3 c d) - toR (at3 a d)| ≤ E) ∧
    E * E ≤ K * len (areaVector a.real b.real c.real)

/-- the mesh with the exact positions of its vertices -/
noncomputable def realMesh (m : TMesh (Point3D F64)) : TMesh (Point3D ℝ) := ⟨m.verts.map Point3D.real, m.faces⟩
end Spec

/-! ### proofs -/

theorem len_le_sum (v : Point3D ℝ) : len v ≤ |v.x| + |v.y| + |v.z| := by
  refine Real.sqrt_le_iff.2 ⟨by positivity, ?_⟩
  rw [← sq_abs v.x, ← sq_abs v.y, ← sq_abs v.z]
  nlinarith [abs_nonneg v.x, abs_nonneg v.y, abs_nonneg v.z, mul_nonneg (abs_nonneg v.x) (abs_nonneg v.y),
    mul_nonneg (abs_nonneg v.x) (abs_nonneg v.z), mul_nonneg (abs_nonneg v.y) (abs_nonneg v.z)]

theorem unitOrZ_smul [DecidableEq (Point3D ℝ)] {v : Point3D ℝ} (h : 0 < len v) : v.smul (1 / len v) = unitOrZ v := by
  have : v ≠ ⟨0, 0, 0⟩ := by rintro rfl; simp [len] at h
  rw [unitOrZ, if_neg this]
  simp only [Point3D.smul, Point3D.mk.injEq]
  refine ⟨?_, ?_, ?_⟩ <;> ring

/-- the computed normal of a face -/
theorem Spec.GoodFace.normal [DecidableEq (Point3D ℝ)] {K : ℝ} {a b c : Point3D F64} (h : GoodFace K a b c) (hK : 1 ≤ K) (hK2 : K ≤ 2 ^ 20) :
    ∃ n, Norm3D.newOrZ ((conn a b).cross (conn a c)) = some n ∧ NearV n (unitOrZ (areaVector a.real b.real c.real)) 1 (K / 2 ^ 45) := by
  obtain ⟨n1, n2, n3, E, hs, b1, he, hth⟩ := h
  have hE : 0 < E := lt_of_lt_of_le (zpow_pos two_pos _) hs
  have b2 : (2:ℝ) ^ (100 : ℤ) ≤ 2 ^ (1023 : ℤ) := zpow_le_zpow_right₀ one_le_two (by norm_num)
  have e12 : NearV (conn a b) (conn a.real b.real) E (uu * E) := by
    unfold NearV
    rw [forall_fin3] at he ⊢
    exact ⟨.sub_exact n2.1 n1.1 he.1.1 (b1.trans b2), .sub_exact n2.2.1 n1.2.1 he.2.1.1 (b1.trans b2), .sub_exact n2.2.2 n1.2.2 he.2.2.1 (b1.trans b2)⟩
  have e13 : NearV (conn a c) (conn a.real c.real) E (uu * E) := by
    unfold NearV
    rw [forall_fin3] at he ⊢
    exact ⟨.sub_exact n3.1 n1.1 he.1.2 (b1.trans b2), .sub_exact n3.2.1 n1.2.1 he.2.1.2 (b1.trans b2), .sub_exact n3.2.2 n1.2.2 he.2.2.2 (b1.trans b2)⟩
  have hu : uu * E ≤ E := by nlinarith [uu_le]
  have hEE1 : (2:ℝ) ^ (-200 : ℤ) ≤ E * E := by
    have : (2:ℝ) ^ (-200 : ℤ) = 2 ^ (-100 : ℤ) * 2 ^ (-100 : ℤ) := by rw [← zpow_add₀ two_ne_zero]; norm_num
    rw [this]; exact mul_le_mul hs hs (zpow_pos two_pos _).le hE.le
  have hEE2 : E * E ≤ 2 ^ (200 : ℤ) := by
    have : (2:ℝ) ^ (200 : ℤ) = 2 ^ (100 : ℤ) * 2 ^ (100 : ℤ) := by rw [← zpow_add₀ two_ne_zero]; norm_num
    rw [this]; exact mul_le_mul b1 b1 hE.le (zpow_pos two_pos _).le
  have hx := e12.cross e13 hu hu ((zpow_le_zpow_right₀ one_le_two (by norm_num)).trans hEE1) (hEE2.trans (zpow_le_zpow_right₀ one_le_two (by norm_num)))
  have hv : (conn a.real b.real).cross (conn a.real c.real) = areaVector a.real b.real c.real := rfl
  rw [hv] at hx
  generalize areaVector a.real b.real c.real = N at *
  have hL : 0 < len N := by
    by_contra hc
    have := mul_nonpos_of_nonneg_of_nonpos (show 0 ≤ K by linarith) (not_lt.1 hc)
    linarith [mul_pos hE hE]
  have hδ : 6 * E * (uu * E) + 3 * E * (uu * E) + 32 * uu * (E * E) = 41 * uu * (E * E) := by ring
  rw [hδ] at hx
  have hKL : 41 * uu * (E * E) ≤ 41 * uu * (K * len N) := mul_le_mul_of_nonneg_left hth (by linarith [uu_pos])
  have hle : len N ≤ 2 ^ (499 : ℤ) := by
    have c := fun d => (hx d).le
    rw [forall_fin3] at c
    simp only [at3_zero, at3_one, at3_two] at c
    have h6 : (2:ℝ) ^ (499 : ℤ) = 2 ^ 299 * 2 ^ (200 : ℤ) := by rw [← zpow_natCast, ← zpow_add₀ two_ne_zero]; norm_num
    have h7 : (6:ℝ) ≤ 2 ^ 299 := le_trans (by norm_num : (6:ℝ) ≤ 2 ^ 3) (pow_le_pow_right₀ one_le_two (by norm_num))
    have h8 : (0:ℝ) < 2 ^ (200 : ℤ) := zpow_pos two_pos _
    rw [h6]
    have := mul_le_mul_of_nonneg_right h7 h8.le
    have h9 := len_le_sum N
    generalize (2:ℝ) ^ 299 = T at *
    generalize (2:ℝ) ^ (200 : ℤ) = T' at *
    linarith only [this, hEE2, c.1, c.2.1, c.2.2, h9]
  have hge : (2:ℝ) ^ (-479 : ℤ) ≤ len N := by
    have h6 : (2:ℝ) ^ (-200 : ℤ) = 2 ^ 20 * 2 ^ (-220 : ℤ) := by rw [← zpow_natCast, ← zpow_add₀ two_ne_zero]; norm_num
    have h7 : (2:ℝ) ^ (-479 : ℤ) ≤ 2 ^ (-220 : ℤ) := zpow_le_zpow_right₀ one_le_two (by norm_num)
    rw [h6] at hEE1
    have := mul_le_mul_of_nonneg_right hK2 hL.le
    generalize (2:ℝ) ^ (-479 : ℤ) = T at *
    generalize (2:ℝ) ^ (-220 : ℤ) = T' at *
    norm_num at hEE1 this
    linarith only [hEE1, this, h7, hth]
  obtain ⟨n, e, hn⟩ := hx.norm hge hle (by
    have := mul_le_mul_of_nonneg_right hK2 hL.le
    rw [uu_53] at *
    norm_num at this hKL ⊢
    linarith only [this, hKL, hL])
  rw [unitOrZ_smul hL] at hn
  refine ⟨n, by simp [Norm3D.newOrZ, e], fun d => (hn d).mono le_rfl ?_⟩
  rw [show (2:ℝ) ^ (-48 : ℤ) = 1 / 2 ^ 48 from z_two 48]
  have h9 : 4 * (41 * uu * (E * E)) / len N ≤ 164 * uu * K := by
    rw [div_le_iff₀ hL]
    linarith only [hKL]
  rw [uu_53] at h9 ⊢
  linarith only [h9, hK]

theorem addNormal_any {α : Type} [Scalar α] (n : Point3D α) (ns : List (Point3D α)) (v : Nat) (h : v < ns.length) :
    ∃ ns', addNormal n ns v = some ns' ∧ ns'.length = ns.length ∧
      ∀ w : Nat, ns'[w]? = if v = w then ns[w]?.map (·.add n) else ns[w]? := by
  refine ⟨ns.set v ((ns[v]).add n), ?_, by simp, ?_⟩
  · unfold addNormal vecSet
    rw [List.getElem?_eq_getElem h]
    simp only [Option.bind_eq_bind, Option.bind_some]
    rw [if_pos h]
  · intro w
    rw [List.getElem?_set]
    by_cases hw : v = w
    · subst hw; simp [h]
    · simp [hw]

theorem pos_realMesh (m : TMesh (Point3D F64)) (i : Nat) (p : Point3D F64) (h : m.verts[i]? = some p) : pos (realMesh m) i = p.real := by
  simp [pos, realMesh, h]

variable [DecidableEq (Point3D ℝ)]

/-- one face -/
theorem faceNormalStep_f64 (m : TMesh (Point3D F64)) (hwf : m.WellFormed) {K : ℝ} (hK : 1 ≤ K) (hK2 : K ≤ 2 ^ 20)
    (hg : ∀ f ∈ m.faces, ∀ a b c, m.verts[f.a]? = some a → m.verts[f.b]? = some b → m.verts[f.c]? = some c → GoodFace K a b c)
    (ns : List (Point3D F64)) (i : Nat) (hi : i < m.faces.length) (hl : ns.length = m.verts.length) :
    ∃ ns' n, faceNormalStep m ns i = some ns' ∧ NearV n (unitNormal (realMesh m) m.faces[i]) 1 (K / 2 ^ 45) ∧
      ns'.length = m.verts.length ∧ ∀ v : Nat, ns'[v]? =
      if m.faces[i].a = v ∨ m.faces[i].b = v ∨ m.faces[i].c = v then ns[v]?.map (·.add n) else ns[v]? := by
  obtain ⟨t, ht, h1, h2, h3⟩ := m.faceVertices_some hwf i hi
  obtain ⟨wa, wb, wc, nab, nac, nbc⟩ := hwf _ (List.getElem_mem hi)
  obtain ⟨n, hn, hnear⟩ := Spec.GoodFace.normal (hg _ (List.getElem_mem hi) _ _ _ h1 h2 h3) hK hK2
  rw [← pos_realMesh m _ _ h1, ← pos_realMesh m _ _ h2, ← pos_realMesh m _ _ h3] at hnear
  obtain ⟨n1, a1, b1, c1⟩ := addNormal_any n ns m.faces[i].a (by omega)
  obtain ⟨n2, a2, b2, c2⟩ := addNormal_any n n1 m.faces[i].b (by omega)
  obtain ⟨n3, a3, b3, c3⟩ := addNormal_any n n2 m.faces[i].c (by omega)
  refine ⟨n3, n, ?_, hnear, by omega, ?_⟩
  · unfold faceNormalStep
    rw [ht, show m.faceVertexIds i = some m.faces[i] from List.getElem?_eq_getElem hi]
    simp only [Option.bind_eq_bind, Option.bind_some, hn, a1, a2, a3]
  · intro v
    rw [c3, c2, c1]
    by_cases e1 : m.faces[i].a = v
    · have e2 : m.faces[i].b ≠ v := by omega
      have e3 : m.faces[i].c ≠ v := by omega
      simp [e1, e2, e3]
    · by_cases e2 : m.faces[i].b = v
      · have e3 : m.faces[i].c ≠ v := by omega
        simp [e1, e2, e3]
      · by_cases e3 : m.faces[i].c = v <;> simp [e1, e2, e3]

/-- the bound for the error of a sum of `c` normals -/
noncomputable def normalErr (K c : ℝ) : ℝ := c * (K + c) / 2 ^ 44

omit [DecidableEq (Point3D ℝ)] in
theorem NearV.add_normal {p n : Point3D F64} {s u : Point3D ℝ} {K c : ℝ} (hp : NearV p s c (normalErr K c)) (hn : NearV n u 1 (K / 2 ^ 45))
    (hK : 1 ≤ K) (hK2 : K ≤ 2 ^ 20) (hc0 : 0 ≤ c) (hc : c ≤ 2 ^ 20) : NearV (p.add n) (s.add u) (c + 1) (normalErr K (c + 1)) := by
  have h1 : normalErr K c ≤ c := by
    unfold normalErr
    rw [div_le_iff₀ (by positivity)]
    norm_num at hK2 hc ⊢
    nlinarith
  have h2 : K / 2 ^ 45 ≤ 1 := by norm_num at hK2 ⊢; linarith
  have h0 : 0 ≤ normalErr K c := by unfold normalErr; positivity
  have e1023 : (2:ℝ) ^ 23 ≤ 2 ^ (1023 : ℤ) := by
    rw [← zpow_natCast]; exact zpow_le_zpow_right₀ one_le_two (by norm_num)
  have key : ∀ {a b : F64} {x y : ℝ}, Near a x c (normalErr K c) → Near b y 1 (K / 2 ^ 45) → Near (a + b) (x + y) (c + 1) (normalErr K (c + 1)) := by
    intro a b x y ha hb
    have := ha.add hb (le_trans (by norm_num at hc ⊢; linarith) e1023)
    refine this.mono le_rfl ?_
    have e : normalErr K (c + 1) = normalErr K c + (K + 2 * c + 1) / 2 ^ 44 := by unfold normalErr; ring
    rw [e, uu_53]
    norm_num at h1 h2 ⊢
    linarith
  have := hp; have := hn
  unfold NearV at *
  rw [forall_fin3] at *
  exact ⟨key (hp.1) (hn.1), key hp.2.1 hn.2.1, key hp.2.2 hn.2.2⟩

theorem foldNormals_f64 (m : TMesh (Point3D F64)) (hwf : m.WellFormed) {K : ℝ} (hK : 1 ≤ K) (hK2 : K ≤ 2 ^ 20)
    (hg : ∀ f ∈ m.faces, ∀ a b c, m.verts[f.a]? = some a → m.verts[f.b]? = some b → m.verts[f.c]? = some c → GoodFace K a b c)
    (hdeg : ∀ v, (facesAt m.faces v).length ≤ 2 ^ 20) : ∀ k, k ≤ m.faces.length →
    ∃ ns, (List.range k).foldlM (faceNormalStep m) (List.replicate m.numVertices Point3D.default) = some ns ∧
      ns.length = m.verts.length ∧ ∀ v, v < m.verts.length →
        ∃ p, ns[v]? = some p ∧ (facesAt (m.faces.take k) v = [] → p = Point3D.default) ∧
          NearV p (vsum ((facesAt (m.faces.take k) v).map (unitNormal (realMesh m)))) (facesAt (m.faces.take k) v).length
            (normalErr K (facesAt (m.faces.take k) v).length) := by
  intro k
  induction k with
  | zero =>
    intro _
    refine ⟨_, rfl, by simp [TMesh.numVertices], ?_⟩
    intro v hv
    refine ⟨Point3D.default, by simp [TMesh.numVertices, hv], fun _ => rfl, ?_⟩
    have z : Near (lit 0 : F64) 0 0 0 := by
      have := Near.self (a := (Scalar.zero : F64)) (X := 0) num_zero (by rw [toR_zero]; simp)
      rw [toR_zero] at this
      exact this
    have e : vsum ((facesAt (m.faces.take 0) v).map (unitNormal (realMesh m))) = ⟨0, 0, 0⟩ := by simp [facesAt, vsum]
    rw [e]
    have e2 : ((facesAt (m.faces.take 0) v).length : ℝ) = 0 := by simp [facesAt]
    rw [e2]
    have e3 : normalErr K 0 = 0 := by simp [normalErr]
    rw [e3]
    unfold NearV
    rw [forall_fin3]
    exact ⟨z, z, z⟩
  | succ k ih =>
    intro hk
    obtain ⟨ns, h1, h2, h3⟩ := ih (by omega)
    obtain ⟨ns', n, h4, hn, h5, h6⟩ := faceNormalStep_f64 m hwf hK hK2 hg ns k (by omega) h2
    refine ⟨ns', ?_, h5, ?_⟩
    · rw [List.range_succ, List.foldlM_append, h1]
      simp [h4]
    · intro v hv
      have ht : m.faces.take (k + 1) = m.faces.take k ++ [m.faces[k]] := by
        rw [List.take_append_getElem]
      obtain ⟨p, hp, hp0, hpn⟩ := h3 v hv
      rw [h6, hp, ht]
      unfold facesAt at hp0 hpn ⊢
      rw [List.filter_append]
      by_cases hc : m.faces[k].a = v ∨ m.faces[k].b = v ∨ m.faces[k].c = v
      · rw [if_pos hc, List.filter_cons_of_pos (by simpa using hc), List.filter_nil, List.map_append, List.map_cons,
          List.map_nil, vsum_append, List.length_append]
        refine ⟨p.add n, rfl, fun h => by simp at h, ?_⟩
        push_cast
        have hd : (List.filter (fun f : Face3 => decide (f.a = v ∨ f.b = v ∨ f.c = v)) (m.faces.take k)).length ≤ 2 ^ 20 :=
          ((List.Sublist.filter _ (List.take_sublist k m.faces)).length_le).trans (hdeg v)
        have := NearV.add_normal hpn hn hK hK2 (by positivity) (by exact_mod_cast hd)
        simpa using this
      · rw [if_neg hc, List.filter_cons_of_neg (by simpa using hc), List.filter_nil, List.append_nil]
        exact ⟨p, rfl, hp0, hpn⟩

/-- **C113**: for faces that are not too thin the normals are, up to rounding, those that C86 describes for exact numbers. -/
theorem c113_normals (m : TMesh (Point3D F64)) (hwf : m.WellFormed) (K : ℝ) (hK : 1 ≤ K) (hK2 : K ≤ 2 ^ 20)
    (hg : ∀ f ∈ m.faces, ∀ a b c, m.verts[f.a]? = some a → m.verts[f.b]? = some b → m.verts[f.c]? = some c → GoodFace K a b c)
    (hdeg : ∀ v, (facesAt m.faces v).length ≤ 2 ^ 20) :
    ∃ ns, normalsOfMesh m = some ns ∧ ns.length = m.verts.length ∧ ∀ v, v < m.verts.length → ∃ n, ns[v]? = some n ∧
      (facesAt m.faces v = [] → n = ⟨lit 0, lit 0, lit 1⟩) ∧
      ∀ (c : ℝ) (s : Point3D ℝ), c = (facesAt m.faces v).length → s = vsum ((facesAt m.faces v).map (unitNormal (realMesh m))) →
        0 < c → c * (K + c) / 2 ^ 42 ≤ len s →
        NearV n (unitOrZ s) 1 (1 / 2 ^ 48 + c * (K + c) / (2 ^ 42 * len s)) := by
  obtain ⟨ns, h1, h2, h3⟩ := foldNormals_f64 m hwf hK hK2 hg hdeg m.faces.length le_rfl
  rw [List.take_length] at h3
  have hm : ∀ l : List (Point3D F64), (∀ p ∈ l, p.Num) → ∃ r, l.mapM Norm3D.newOrZ = some r ∧ r.length = l.length ∧
      ∀ v : Nat, ∀ p, l[v]? = some p → ∃ n, r[v]? = some n ∧ Norm3D.newOrZ p = some n := by
    intro l hl
    induction l with
    | nil => exact ⟨[], rfl, rfl, by simp⟩
    | cons p l ih =>
      obtain ⟨r, e1, e2, e3⟩ := ih fun q hq => hl q (by simp [hq])
      obtain ⟨n, hn⟩ : ∃ n, Norm3D.newOrZ p = some n := by
        obtain ⟨d, hd, -⟩ := c92_abs_3d p (hl p (by simp))
        unfold Norm3D.newOrZ Norm3D.new
        rw [hd]
        simp only [Option.bind_eq_bind, Option.bind_some]
        split_ifs <;> exact ⟨_, rfl⟩
      refine ⟨n :: r, by simp [List.mapM_cons, hn, e1], by simp [e2], ?_⟩
      intro v q hq
      cases v with
      | zero => simp only [List.getElem?_cons_zero, Option.some.injEq] at hq ⊢; exact ⟨n, rfl, hq ▸ hn⟩
      | succ v => simpa using e3 v q (by simpa using hq)
  obtain ⟨r, e1, e2, e3⟩ := hm ns (by
    intro p hp
    obtain ⟨v, hv, rfl⟩ := List.getElem_of_mem hp
    obtain ⟨q, hq, -, hn⟩ := h3 v (by omega)
    rw [List.getElem?_eq_getElem hv] at hq
    rw [Option.some.inj hq]
    exact ⟨(hn 0).num, (hn 1).num, (hn 2).num⟩)
  refine ⟨r, ?_, by omega, ?_⟩
  · unfold normalsOfMesh
    rw [show m.numFaces = m.faces.length from rfl, h1]
    simpa using e1
  · intro v hv
    obtain ⟨p, hp, hp0, hpn⟩ := h3 v hv
    obtain ⟨n, hn, hnew⟩ := e3 v p hp
    refine ⟨n, hn, ?_, ?_⟩
    · intro h0
      rw [hp0 h0] at hnew
      have : Norm3D.newOrZ (Point3D.default : Point3D F64) = some ⟨lit 0, lit 0, lit 1⟩ := by decide +kernel
      rw [this] at hnew
      exact (Option.some.inj hnew).symm
    · rintro c s rfl rfl hc hs
      generalize vsum ((facesAt m.faces v).map (unitNormal (realMesh m))) = s at *
      have hcle : ((facesAt m.faces v).length : ℝ) ≤ 2 ^ 20 := by exact_mod_cast hdeg v
      have h1c : (1:ℝ) ≤ (facesAt m.faces v).length := by
        have : 0 < (facesAt m.faces v).length := by exact_mod_cast hc
        exact_mod_cast this
      generalize ((facesAt m.faces v).length : ℝ) = c at *
      have hL : 0 < len s := lt_of_lt_of_le (by positivity) hs
      have hbig : (1:ℝ) / 2 ^ 42 ≤ len s := by
        refine le_trans ?_ hs
        rw [div_le_div_iff_of_pos_right (by positivity)]
        nlinarith
      have hlow : (2:ℝ) ^ (-479 : ℤ) ≤ len s := by
        refine le_trans ?_ hbig
        rw [← z_two 42]
        exact zpow_le_zpow_right₀ one_le_two (by norm_num)
      have hhigh : len s ≤ 2 ^ (499 : ℤ) := by
        have h9 := len_le_sum s
        have c' := fun d => (hpn d).le
        rw [forall_fin3] at c'
        simp only [at3_zero, at3_one, at3_two] at c'
        have : (2:ℝ) ^ 22 ≤ 2 ^ (499 : ℤ) := by rw [← zpow_natCast]; exact zpow_le_zpow_right₀ one_le_two (by norm_num)
        refine le_trans ?_ this
        norm_num at hcle ⊢
        linarith only [h9, hcle, c'.1, c'.2.1, c'.2.2]
      have hd : 4 * normalErr K c ≤ len s := by
        refine le_trans (le_of_eq ?_) hs
        unfold normalErr; ring
      obtain ⟨n', e, hn'⟩ := hpn.norm hlow hhigh hd
      have : Norm3D.newOrZ p = some n' := by simp [Norm3D.newOrZ, e]
      rw [this] at hnew
      rw [← Option.some.inj hnew]
      rw [unitOrZ_smul hL] at hn'
      intro d
      refine (hn' d).mono le_rfl (le_of_eq ?_)
      rw [show (2:ℝ) ^ (-48 : ℤ) = 1 / 2 ^ 48 from z_two 48]
      unfold normalErr
      field_simp
      ring

/-- **C113**: where all faces of a vertex have the same exact normal, the computed normal is that one up to rounding. -/
theorem c113_flat (m : TMesh (Point3D F64)) (hwf : m.WellFormed) (K : ℝ) (hK : 1 ≤ K) (hK2 : K ≤ 2 ^ 20)
    (hg : ∀ f ∈ m.faces, ∀ a b c, m.verts[f.a]? = some a → m.verts[f.b]? = some b → m.verts[f.c]? = some c → GoodFace K a b c)
    (hdeg : ∀ v, (facesAt m.faces v).length ≤ 2 ^ 20) (v : Nat) (hv : v < m.verts.length) (u : Point3D ℝ)
    (hne : ∃ f ∈ m.faces, f.a = v ∨ f.b = v ∨ f.c = v)
    (hflat : ∀ f ∈ m.faces, f.a = v ∨ f.b = v ∨ f.c = v → unitNormal (realMesh m) f = u) :
    ∃ ns n, normalsOfMesh m = some ns ∧ ns[v]? = some n ∧ NearV n u 1 ((K + (facesAt m.faces v).length) / 2 ^ 41) := by
  obtain ⟨ns, h1, -, h3⟩ := c113_normals m hwf K hK hK2 hg hdeg
  obtain ⟨n, hn, -, h4⟩ := h3 v hv
  refine ⟨ns, n, h1, hn, ?_⟩
  have hmem : ∀ f, f ∈ facesAt m.faces v ↔ f ∈ m.faces ∧ (f.a = v ∨ f.b = v ∨ f.c = v) := by
    intro f; simp [facesAt]
  obtain ⟨f, hf, hfv⟩ := hne
  have hu : len u = 1 := by rw [← hflat f hf hfv]; exact len_unitOrZ _
  have hpos : 0 < (facesAt m.faces v).length := List.length_pos_iff.2 (List.ne_nil_of_mem ((hmem f).2 ⟨hf, hfv⟩))
  have hdv := hdeg v
  have hsum : vsum ((facesAt m.faces v).map (unitNormal (realMesh m))) =
      ⟨(facesAt m.faces v).length * u.x, (facesAt m.faces v).length * u.y, (facesAt m.faces v).length * u.z⟩ := by
    have : (facesAt m.faces v).map (unitNormal (realMesh m)) = List.replicate (facesAt m.faces v).length u := by
      rw [List.eq_replicate_iff]
      refine ⟨by simp, ?_⟩
      intro b hb
      obtain ⟨g, hg', rfl⟩ := List.mem_map.1 hb
      obtain ⟨h5, h6⟩ := (hmem g).1 hg'
      exact hflat g h5 h6
    rw [this]
    simp [vsum]
  have h5 := h4 _ _ rfl hsum.symm (by exact_mod_cast hpos)
  have hc1 : (1:ℝ) ≤ (facesAt m.faces v).length := by exact_mod_cast hpos
  have hc2 : ((facesAt m.faces v).length : ℝ) ≤ 2 ^ 20 := by exact_mod_cast hdv
  generalize ((facesAt m.faces v).length : ℝ) = c at *
  have hc0 : 0 < c := by linarith
  have hlen : len (⟨c * u.x, c * u.y, c * u.z⟩ : Point3D ℝ) = c := by
    show √((c * u.x) ^ 2 + (c * u.y) ^ 2 + (c * u.z) ^ 2) = c
    rw [show (c * u.x) ^ 2 + (c * u.y) ^ 2 + (c * u.z) ^ 2 = c ^ 2 * (u.x ^ 2 + u.y ^ 2 + u.z ^ 2) by ring, Real.sqrt_mul (sq_nonneg c),
      Real.sqrt_sq hc0.le]
    show c * len u = c
    rw [hu, mul_one]
  rw [hlen] at h5
  have hu' : unitOrZ (⟨c * u.x, c * u.y, c * u.z⟩ : Point3D ℝ) = u := by
    rw [← unitOrZ_smul (by rw [hlen]; exact hc0), hlen]
    simp only [Point3D.smul]
    cases u
    simp only [Point3D.mk.injEq]
    refine ⟨?_, ?_, ?_⟩ <;> field_simp
  rw [hu'] at h5
  intro d
  refine (h5 ?_ d).mono le_rfl ?_
  · norm_num at hK2 hc2 ⊢
    nlinarith
  · have e : c * (K + c) / (2 ^ 42 * c) = (K + c) / 2 ^ 42 := by field_simp
    rw [e]
    norm_num
    linarith

/-- Without the condition on the faces the claim is false: a very thin triangle facing down gets normals facing up. -/
theorem c113_violated_thin : ∃ a b c : Point3D F64, a.Num ∧ b.Num ∧ c.Num ∧
    unitNormal (realMesh ⟨[a, b, c], [⟨0, 1, 2⟩]⟩) ⟨0, 1, 2⟩ = ⟨0, 0, -1⟩ ∧
    normalsOfMesh ⟨[a, b, c], [⟨0, 1, 2⟩]⟩ = some [⟨f 0, f 0, f 1⟩, ⟨f 0, f 0, f 1⟩, ⟨f 0, f 0, f 1⟩] := by
  have h0 := ex_num 0 false 0 (by decide +kernel)
  have h1 := ex_num 1 false 1 (by decide +kernel)
  have h2 := ex_num (1 + 1 / 2 ^ 52) false (1 + 1 / 2 ^ 52) (by decide +kernel)
  have h3 := ex_num (1 - 1 / 2 ^ 52) false (1 - 1 / 2 ^ 52) (by decide +kernel)
  refine ⟨⟨f 0, f 0, f 0⟩, ⟨f (1 + 1 / 2 ^ 52), f 1, f 0⟩, ⟨f 1, f (1 - 1 / 2 ^ 52), f 0⟩, ?_, ?_, ?_, ?_, by decide +kernel⟩
  · simp only [Point3D.Num, h0.1, and_self]
  · simp only [Point3D.Num, h0.1, h1.1, h2.1, and_self]
  · simp only [Point3D.Num, h0.1, h1.1, h3.1, and_self]
  · have e : areaVector (pos (realMesh ⟨[⟨f 0, f 0, f 0⟩, ⟨f (1 + 1 / 2 ^ 52), f 1, f 0⟩, ⟨f 1, f (1 - 1 / 2 ^ 52), f 0⟩], [⟨0, 1, 2⟩]⟩) 0)
        (pos (realMesh ⟨[⟨f 0, f 0, f 0⟩, ⟨f (1 + 1 / 2 ^ 52), f 1, f 0⟩, ⟨f 1, f (1 - 1 / 2 ^ 52), f 0⟩], [⟨0, 1, 2⟩]⟩) 1)
        (pos (realMesh ⟨[⟨f 0, f 0, f 0⟩, ⟨f (1 + 1 / 2 ^ 52), f 1, f 0⟩, ⟨f 1, f (1 - 1 / 2 ^ 52), f 0⟩], [⟨0, 1, 2⟩]⟩) 2) =
        ⟨0, 0, -(1 / 2 ^ 104)⟩ := by
      rw [pos_realMesh _ 0 ⟨f 0, f 0, f 0⟩ rfl, pos_realMesh _ 1 ⟨f (1 + 1 / 2 ^ 52), f 1, f 0⟩ rfl, pos_realMesh _ 2 ⟨f 1, f (1 - 1 / 2 ^ 52), f 0⟩ rfl]
      simp only [areaVector, Point3D.real, h0.2, h1.2, h2.2, h3.2, val, Point3D.mk.injEq]
      norm_num
    rw [unitNormal, e]
    have hl : len (⟨0, 0, -(1 / 2 ^ 104)⟩ : Point3D ℝ) = 1 / 2 ^ 104 := by
      show √(0 ^ 2 + 0 ^ 2 + (-(1 / 2 ^ 104)) ^ 2) = 1 / 2 ^ 104
      rw [show (0:ℝ) ^ 2 + 0 ^ 2 + (-(1 / 2 ^ 104)) ^ 2 = (1 / 2 ^ 104) ^ 2 by ring]
      exact Real.sqrt_sq (by positivity)
    rw [← unitOrZ_smul (by rw [hl]; positivity), hl]
    simp [Point3D.smul]

/-- the hypotheses of `c113_normals` and `c113_flat` are met by a triangle and a vertex apart from it -/
example : let m : TMesh (Point3D F64) := ⟨[⟨f 0, f 0, f 0⟩, ⟨f 1, f 0, f 0⟩, ⟨f 0, f 1, f 0⟩, ⟨f 0, f 0, f 1⟩], [⟨0, 1, 2⟩]⟩
    m.WellFormed ∧ (∀ f ∈ m.faces, ∀ a b c, m.verts[f.a]? = some a → m.verts[f.b]? = some b → m.verts[f.c]? = some c → GoodFace 1 a b c) ∧
    (∀ v, (facesAt m.faces v).length ≤ 2 ^ 20) ∧ facesAt m.faces 3 = [] := by
  have h0 := ex_num 0 false 0 (by decide +kernel)
  have h1 := ex_num 1 false 1 (by decide +kernel)
  refine ⟨?_, ?_, ?_, by decide⟩
  · intro g hg
    simp only [List.mem_singleton] at hg
    subst hg
    simp
  · intro g hg a b c ha hb hc
    simp only [List.mem_singleton] at hg
    subst hg
    simp only [List.getElem?_cons_zero, List.getElem?_cons_succ, Option.some.injEq] at ha hb hc
    subst ha hb hc
    refine ⟨?_, ?_, ?_, 1, ?_, one_le_zpow₀ one_le_two (by norm_num), ?_, ?_⟩
    · simp only [Point3D.Num, h0.1, and_self]
    · simp only [Point3D.Num, h0.1, h1.1, and_self]
    · simp only [Point3D.Num, h0.1, h1.1, and_self]
    · rw [zpow_neg]; exact inv_le_one_of_one_le₀ (one_le_zpow₀ one_le_two (by norm_num))
    · simp only [forall_fin3, at3_zero, at3_one, at3_two, h0.2, h1.2, val]; norm_num [abs_le]
    · simp [len, areaVector, Point3D.real, h0.2, h1.2, val]
  · intro v
    refine (List.length_filter_le _ _).trans ?_
    simp

end R3D
