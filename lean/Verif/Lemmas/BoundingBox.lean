import Verif.Spec.Geom
import Mathlib.Tactic.Linarith
/- Helper lemmas for bounding boxes: running minimum / maximum of scalars. -/
namespace R3D
open Scalar LawfulScalar

section
variable {α : Type} [Scalar α]

/-- `if b <. a then b else a` -/
def mn (a b : α) : α := if b <. a then b else a
/-- `if b >. a then b else a` -/
def mx (a b : α) : α := if b >. a then b else a

theorem mn_self (a : α) : mn a a = a := by simp [mn]
theorem mx_self (a : α) : mx a a = a := by simp [mx]

theorem mn_mem (a b : α) : mn a b = a ∨ mn a b = b := by unfold mn; split <;> simp
theorem mx_mem (a b : α) : mx a b = a ∨ mx a b = b := by unfold mx; split <;> simp

variable [LawfulScalar α]

theorem ok_mn {a b : α} (ha : ok a) (hb : ok b) : ok (mn a b) := by unfold mn; split <;> assumption
theorem ok_mx {a b : α} (ha : ok a) (hb : ok b) : ok (mx a b) := by unfold mx; split <;> assumption

theorem key_mn {a b : α} (ha : ok a) (hb : ok b) : key (mn a b) = min (key a) (key b) := by
  unfold mn
  by_cases h : (b <. a) = true
  · rw [if_pos h]; rw [lt_of_ok hb ha] at h; exact (min_eq_right h.le).symm
  · rw [if_neg h]; rw [lt_of_ok hb ha, not_lt] at h; exact (min_eq_left h).symm

theorem key_mx {a b : α} (ha : ok a) (hb : ok b) : key (mx a b) = max (key a) (key b) := by
  unfold mx
  by_cases h : (b >. a) = true
  · rw [if_pos h]; rw [lt_of_ok ha hb] at h; exact (max_eq_right h.le).symm
  · rw [if_neg h]; rw [lt_of_ok ha hb, not_lt] at h; exact (max_eq_left h).symm

theorem foldl_mn (l : List α) : ∀ (a : α), ok a → (∀ b ∈ l, ok b) →
    ok (l.foldl mn a) ∧ l.foldl mn a ∈ a :: l ∧ ∀ b ∈ a :: l, key (l.foldl mn a) ≤ key b := by
  induction l with
  | nil => intro a ha _; simp [ha]
  | cons c l ih =>
    intro a ha h
    have hc := h c (by simp)
    obtain ⟨h1, h2, h3⟩ := ih (mn a c) (ok_mn ha hc) (fun b hb => h b (by simp [hb]))
    refine ⟨h1, ?_, ?_⟩
    · simp only [List.foldl_cons, List.mem_cons] at h2 ⊢
      rcases h2 with h2 | h2
      · rcases mn_mem a c with e | e <;> rw [e] at h2 <;> simp [e, h2]
      · exact .inr (.inr h2)
    · intro b hb
      simp only [List.foldl_cons]
      have hm := h3 (mn a c) (by simp)
      rw [key_mn ha hc] at hm
      simp only [List.mem_cons] at hb
      rcases hb with rfl | rfl | hb
      · exact hm.trans (min_le_left _ _)
      · exact hm.trans (min_le_right _ _)
      · exact h3 b (by simp [hb])

theorem foldl_mx (l : List α) : ∀ (a : α), ok a → (∀ b ∈ l, ok b) →
    ok (l.foldl mx a) ∧ l.foldl mx a ∈ a :: l ∧ ∀ b ∈ a :: l, key b ≤ key (l.foldl mx a) := by
  induction l with
  | nil => intro a ha _; simp [ha]
  | cons c l ih =>
    intro a ha h
    have hc := h c (by simp)
    obtain ⟨h1, h2, h3⟩ := ih (mx a c) (ok_mx ha hc) (fun b hb => h b (by simp [hb]))
    refine ⟨h1, ?_, ?_⟩
    · simp only [List.foldl_cons, List.mem_cons] at h2 ⊢
      rcases h2 with h2 | h2
      · rcases mx_mem a c with e | e <;> rw [e] at h2 <;> simp [e, h2]
      · exact .inr (.inr h2)
    · intro b hb
      simp only [List.foldl_cons]
      have hm := h3 (mx a c) (by simp)
      rw [key_mx ha hc] at hm
      simp only [List.mem_cons] at hb
      rcases hb with rfl | rfl | hb
      · exact (le_max_left _ _).trans hm
      · exact (le_max_right _ _).trans hm
      · exact h3 b (by simp [hb])
end

open Classical in
/-- the decision of `BoundingBox2D/3D::new` in terms of numerical comparisons -/
theorem dims_decide {n : Nat} {β : Type} (f g : Fin n → EReal) (v : β) (r : Res β)
    (hr : r = if ∃ d, f d = g d then .error .MinMaxEqual
      else if ∃ d, g d < f d then .error .MinMaxSwapped else .ok v) :
    (∀ b, r = .ok b ↔ (∀ d, f d < g d) ∧ b = v) ∧
    (r = .error .MinMaxEqual ↔ ∃ d, f d = g d) ∧
    (r = .error .MinMaxSwapped ↔ (∀ d, f d ≠ g d) ∧ ∃ d, g d < f d) := by
  subst hr
  by_cases h : ∃ d, f d = g d
  · rw [if_pos h]
    obtain ⟨d, hd⟩ := h
    refine ⟨fun b => ⟨fun h => by simp at h, fun h => absurd hd (h.1 d).ne⟩, ⟨fun _ => ⟨d, hd⟩, fun _ => rfl⟩,
      ⟨fun h => by simp at h, fun h => absurd hd (h.1 d)⟩⟩
  · rw [if_neg h]
    by_cases h' : ∃ d, g d < f d
    · rw [if_pos h']
      obtain ⟨d, hd⟩ := h'
      refine ⟨fun b => ⟨fun h => by simp at h, fun h => absurd hd (h.1 d).not_gt⟩,
        ⟨fun h => by simp at h, fun h1 => absurd h1 h⟩, ⟨fun _ => ⟨fun d e => h ⟨d, e⟩, d, hd⟩, fun _ => rfl⟩⟩
    · rw [if_neg h']
      refine ⟨fun b => ⟨fun e => ⟨fun d => ?_, by simpa [eq_comm] using e⟩, fun h => by rw [h.2]⟩,
        ⟨fun h => by simp at h, fun h1 => absurd h1 h⟩, ⟨fun h => by simp at h, fun h1 => absurd h1.2 h'⟩⟩
      rcases lt_trichotomy (f d) (g d) with k | k | k
      · exact k
      · exact absurd ⟨d, k⟩ h
      · exact absurd ⟨d, k⟩ h'

open Classical in
theorem BoundingBox2D.new_eq {α : Type} [Scalar α] [LawfulScalar α] (mn mx : Point2D α)
    (h1 : ∀ d, ok (Spec.at2 mn d)) (h2 : ∀ d, ok (Spec.at2 mx d)) :
    BoundingBox2D.new mn mx =
      if ∃ d, key (Spec.at2 mn d) = key (Spec.at2 mx d) then .error .MinMaxEqual
      else if ∃ d, key (Spec.at2 mx d) < key (Spec.at2 mn d) then .error .MinMaxSwapped
      else .ok ⟨mn, mx⟩ := by
  simp only [Fin.forall_fin_two, Fin.exists_fin_two, Spec.at2_zero, Spec.at2_one] at h1 h2 ⊢
  simp only [BoundingBox2D.new, Bool.or_eq_true, eq_of_ok h1.1 h2.1, eq_of_ok h1.2 h2.2,
    lt_of_ok h2.1 h1.1, lt_of_ok h2.2 h1.2]

open Classical in
theorem BoundingBox3D.new_eq {α : Type} [Scalar α] [LawfulScalar α] (mn mx : Point3D α)
    (h1 : ∀ d, ok (Spec.at3 mn d)) (h2 : ∀ d, ok (Spec.at3 mx d)) :
    BoundingBox3D.new mn mx =
      if ∃ d, key (Spec.at3 mn d) = key (Spec.at3 mx d) then .error .MinMaxEqual
      else if ∃ d, key (Spec.at3 mx d) < key (Spec.at3 mn d) then .error .MinMaxSwapped
      else .ok ⟨mn, mx⟩ := by
  simp only [Spec.forall_fin3, Spec.exists_fin3, Spec.at3_zero, Spec.at3_one, Spec.at3_two] at h1 h2 ⊢
  simp only [BoundingBox3D.new, Bool.or_eq_true, eq_of_ok h1.1 h2.1, eq_of_ok h1.2.1 h2.2.1,
    eq_of_ok h1.2.2 h2.2.2, lt_of_ok h2.1 h1.1, lt_of_ok h2.2.1 h1.2.1, lt_of_ok h2.2.2 h1.2.2,
    or_assoc]

/-- extent of a non-empty list of points along a coordinate -/
theorem extent {α P : Type} [Scalar α] [LawfulScalar α] (c : P → α) (p : P) (ps : List P)
    (h : ∀ q ∈ p :: ps, ok (c q)) :
    ok ((ps.map c).foldl mn (c p)) ∧ ok ((ps.map c).foldl mx (c p)) ∧
    (∃ q ∈ p :: ps, (ps.map c).foldl mn (c p) = c q) ∧
    (∃ q ∈ p :: ps, (ps.map c).foldl mx (c p) = c q) ∧
    ∀ q ∈ p :: ps, key ((ps.map c).foldl mn (c p)) ≤ key (c q) ∧
      key (c q) ≤ key ((ps.map c).foldl mx (c p)) := by
  have hp := h p (by simp)
  have hr : ∀ b ∈ ps.map c, ok b := by
    intro b hb
    obtain ⟨q, hq, rfl⟩ := List.mem_map.1 hb
    exact h q (by simp [hq])
  obtain ⟨a1, a2, a3⟩ := foldl_mn (ps.map c) (c p) hp hr
  obtain ⟨b1, b2, b3⟩ := foldl_mx (ps.map c) (c p) hp hr
  have mem : ∀ v ∈ c p :: ps.map c, ∃ q ∈ p :: ps, v = c q := by
    intro v hv
    rw [← List.map_cons, List.mem_map] at hv
    obtain ⟨q, hq, rfl⟩ := hv
    exact ⟨q, hq, rfl⟩
  have mem' : ∀ q ∈ p :: ps, c q ∈ c p :: ps.map c := by
    intro q hq
    rw [← List.map_cons]
    exact List.mem_map_of_mem hq
  exact ⟨a1, b1, mem _ a2, mem _ b2, fun q hq => ⟨a3 _ (mem' q hq), b3 _ (mem' q hq)⟩⟩

/-- a coordinate strictly inside contributes no distance -/
theorem max3_zero {α : Type} [Scalar α] [LawfulZero α] {lo x hi : α} (h1 : (x >. lo) = true)
    (h2 : (x <. hi) = true) :
    ok (max3 (lo - x) zero (x - hi)) ∧ key (max3 (lo - x) zero (x - hi)) = 0 := by
  rw [lt_iff] at h1 h2
  obtain ⟨k1, k2⟩ := LawfulZero.sub_neg lo x h1.1 h1.2.1 h1.2.2
  obtain ⟨l1, l2⟩ := LawfulZero.sub_neg x hi h2.1 h2.2.1 h2.2.2
  have e1 : max2 (lo - x) (zero : α) = zero := by
    unfold max2
    rw [if_neg]
    rw [lt_of_ok ok_zero k1, key_zero]
    exact not_lt.2 k2
  unfold max3
  rw [e1]
  unfold max2
  split
  · exact ⟨ok_zero, key_zero⟩
  · rename_i h
    rw [lt_of_ok l1 ok_zero, key_zero, not_lt] at h
    exact ⟨l1, le_antisymm l2 h⟩

theorem nonNegative_zero {α : Type} [Scalar α] [LawfulZero α] {v : α} (h1 : ok v) (h2 : key v = 0) :
    NonNegative.new v = some ⟨v⟩ := by
  unfold NonNegative.new
  rw [if_pos]
  rw [le_of_ok ok_zero h1, key_zero, h2]

namespace BoundingBox2D
variable {α : Type} [Scalar α]

theorem foldl_step (ps : List (Point2D α)) : ∀ (a b : Point2D α) (n : Nat),
    ps.foldl step (a, b, n) =
      (⟨(ps.map (·.x)).foldl mn a.x, (ps.map (·.y)).foldl mn a.y⟩,
       ⟨(ps.map (·.x)).foldl mx b.x, (ps.map (·.y)).foldl mx b.y⟩, n + ps.length) := by
  induction ps with
  | nil => intro a b n; simp
  | cons p ps ih =>
    intro a b n
    rw [List.foldl_cons, step, ih]
    simp only [List.map_cons, List.foldl_cons, mn, mx, List.length_cons]
    congr 2
    omega

theorem combine_eq (a b : BoundingBox2D α) : combine a b =
    ⟨⟨mn a.min.x b.min.x, mn a.min.y b.min.y⟩, ⟨mx a.max.x b.max.x, mx a.max.y b.max.y⟩⟩ := rfl
end BoundingBox2D

namespace BoundingBox3D
variable {α : Type} [Scalar α]

theorem foldl_step (ps : List (Point3D α)) : ∀ (a b : Point3D α) (n : Nat),
    ps.foldl step (a, b, n) =
      (⟨(ps.map (·.x)).foldl mn a.x, (ps.map (·.y)).foldl mn a.y, (ps.map (·.z)).foldl mn a.z⟩,
       ⟨(ps.map (·.x)).foldl mx b.x, (ps.map (·.y)).foldl mx b.y, (ps.map (·.z)).foldl mx b.z⟩,
       n + ps.length) := by
  induction ps with
  | nil => intro a b n; simp
  | cons p ps ih =>
    intro a b n
    rw [List.foldl_cons, step, ih]
    simp only [List.map_cons, List.foldl_cons, mn, mx, List.length_cons]
    congr 2
    omega

theorem combine_eq (a b : BoundingBox3D α) : combine a b =
    ⟨⟨mn a.min.x b.min.x, mn a.min.y b.min.y, mn a.min.z b.min.z⟩,
     ⟨mx a.max.x b.max.x, mx a.max.y b.max.y, mx a.max.z b.max.z⟩⟩ := rfl
end BoundingBox3D
end R3D
