import Verif.Model.Cluster
import Verif.Lemmas.BoundingBox
import Verif.Props.Positive
import Verif.Props.AABBTree
import Verif.Lemmas.BoundingBoxReal
/-!
# C84: the spatial index `Cluster`
-/
namespace R3D
open Scalar LawfulScalar

namespace Cluster

/-! ### the map -/

theorem lookup_pushAt (k k' : Nat × Nat) (i : Nat) : ∀ m : List ((Nat × Nat) × List Nat),
    ((pushAt k i m).lookup k').getD [] = ((m.lookup k').getD []) ++ if k' = k then [i] else [] := by
  intro m
  induction m with
  | nil =>
    by_cases h : k' = k
    · subst h; simp [pushAt]
    · have : (k' == k) = false := by simpa using h
      simp [pushAt, List.lookup, h, this]
  | cons e m ih =>
    obtain ⟨a, is⟩ := e
    unfold pushAt
    by_cases h : k = a
    · subst h
      rw [if_pos (show k = (k, is).1 from rfl)]
      by_cases h' : k' = k
      · subst h'; simp
      · have hb : (k' == k) = false := by simpa using h'
        simp [List.lookup, hb, h']
    · rw [if_neg (show ¬ k = (a, is).1 from h)]
      by_cases h' : k' = a
      · subst h'
        have hk : k' ≠ k := fun e => h e.symm
        simp [hk]
      · have hb : (k' == a) = false := by simpa using h'
        simp only [List.lookup, hb]
        exact ih

theorem lookup_fold (k' : Nat × Nat) (i : Nat) : ∀ (ks : List (Nat × Nat)) (_ : ks.Nodup) (m),
    ((ks.foldl (fun m k => pushAt k i m) m).lookup k').getD [] =
      ((m.lookup k').getD []) ++ if k' ∈ ks then [i] else [] := by
  intro ks
  induction ks with
  | nil => intro _ m; simp
  | cons k ks ih =>
    intro hn m
    rw [List.nodup_cons] at hn
    rw [List.foldl_cons, ih hn.2, lookup_pushAt, List.append_assoc]
    congr 1
    by_cases h : k' = k
    · subst h; simp [hn.1]
    · simp [h]

theorem foldl_product {β : Type} (xs ys : List Nat) (g : β → Nat × Nat → β) : ∀ b : β,
    xs.foldl (fun b x => ys.foldl (fun b y => g b (x, y)) b) b = (xs ×ˢ ys).foldl g b := by
  induction xs with
  | nil => intro b; simp
  | cons x xs ih =>
    intro b
    rw [List.foldl_cons, ih, List.product_cons, List.foldl_append, List.foldl_map]

theorem mem_inclusive {a b x : Nat} : x ∈ inclusive a b ↔ a ≤ x ∧ x ≤ b := by
  unfold inclusive
  rw [List.mem_range'_1]
  omega

theorem nodup_inclusive (a b : Nat) : (inclusive a b).Nodup := by
  unfold inclusive; exact List.nodup_range'

variable {α T : Type} [Scalar α]

/-- the point lies in the cells of the box -/
def inCells (startX startY incrX incrY : α) (k : Nat × Nat) (b : BoundingBox3D α) : Prop :=
  cell startX incrX b.min.x ≤ k.1 ∧ k.1 ≤ cell startX incrX b.max.x ∧
  cell startY incrY b.min.y ≤ k.2 ∧ k.2 ≤ cell startY incrY b.max.y

instance (startX startY incrX incrY : α) (k : Nat × Nat) (b : BoundingBox3D α) :
    Decidable (inCells startX startY incrX incrY k b) := by unfold inCells; infer_instance

theorem lookup_addElement (sx sy ix iy : α) (map) (i : Nat) (b : BoundingBox3D α) (k : Nat × Nat) :
    ((addElement sx sy ix iy map i b).lookup k).getD [] =
      ((map.lookup k).getD []) ++ if inCells sx sy ix iy k b then [i] else [] := by
  unfold addElement
  rw [foldl_product _ _ (fun m k => pushAt k i m)]
  rw [lookup_fold k i _ ((nodup_inclusive _ _).product (nodup_inclusive _ _))]
  have : (k ∈ inclusive (cell sx ix b.min.x) (cell sx ix b.max.x) ×ˢ inclusive (cell sy iy b.min.y) (cell sy iy b.max.y)) ↔
      inCells sx sy ix iy k b := by
    obtain ⟨k1, k2⟩ := k
    show (k1, k2) ∈ List.product _ _ ↔ _
    rw [List.pair_mem_product, mem_inclusive, mem_inclusive]
    unfold inCells
    tauto
  simp only [this]

theorem lookup_map (sx sy ix iy : α) (bb : T → BoundingBox3D α) (k : Nat × Nat) : ∀ (l : List (T × Nat)) (m),
    ((l.foldl (fun map x => addElement sx sy ix iy map x.2 (bb x.1)) m).lookup k).getD [] =
      ((m.lookup k).getD []) ++ (l.filter fun x => inCells sx sy ix iy k (bb x.1)).map (·.2) := by
  intro l
  induction l with
  | nil => intro m; simp
  | cons x l ih =>
    intro m
    rw [List.foldl_cons, ih, lookup_addElement, List.append_assoc]
    congr 1
    by_cases h : inCells sx sy ix iy k (bb x.1)
    · simp [h]
    · simp [h]

/-- what `for_each_candidate` passes on -/
theorem candidates_eq (bb : T → BoundingBox3D α) (data : List T) (sx sy ix iy : α) (x y : α) :
    candidates (⟨data, data.zipIdx.foldl (fun map x => addElement sx sy ix iy map x.2 (bb x.1)) [], sx, sy, ix, iy⟩ :
      Cluster T α) x y = some (data.filter fun e => inCells sx sy ix iy (cell sx ix x, cell sy iy y) (bb e)) := by
  have h := lookup_map sx sy ix iy bb (cell sx ix x, cell sy iy y) data.zipIdx []
  unfold candidates
  generalize hk : (cell sx ix x, cell sy iy y) = k at h
  simp only [hk]
  have hmap : ∀ (l : List (T × Nat)), (∀ e ∈ l, data[e.2]? = some e.1) →
      (l.map (·.2)).mapM (fun i => data[i]?) = some (l.map (·.1)) := by
    intro l hl
    induction l with
    | nil => rfl
    | cons e l ih =>
      rw [List.map_cons, List.mapM_cons, hl e (by simp), ih (fun e he => hl e (by simp [he]))]
      rfl
  have hz : ∀ e ∈ data.zipIdx.filter (fun x => inCells sx sy ix iy k (bb x.1)), data[e.2]? = some e.1 := by
    intro e he
    have := List.mem_of_mem_filter he
    exact List.mk_mem_zipIdx_iff_getElem?.1 this
  have hf : (data.zipIdx.filter (fun x => inCells sx sy ix iy k (bb x.1))).map (·.1) =
      data.filter fun e => inCells sx sy ix iy k (bb e) := by
    have : data.filter (fun e => decide (inCells sx sy ix iy k (bb e))) =
        (data.zipIdx.map (·.1)).filter (fun e => decide (inCells sx sy ix iy k (bb e))) := by
      rw [List.zipIdx_map_fst]
    rw [this, List.filter_map]
    rfl
  rw [← hf, ← hmap _ hz]
  simp only [List.lookup, Option.getD_none, List.nil_append] at h
  rw [← h]
  cases hl : List.lookup k (data.zipIdx.foldl (fun map x => addElement sx sy ix iy map x.2 (bb x.1)) []) with
  | none => rfl
  | some is => rfl

/-! ### binary64: the cell of a coordinate is monotone -/

theorem toNatSat_mono (mx : Nat) {a b : F64} (ha : F64.ok a) (hb : F64.ok b)
    (hra : F64.Rep a) (hrb : F64.Rep b) (h : F64.key a ≤ F64.key b) : F64.toNatSat mx a ≤ F64.toNatSat mx b := by
  have hle : ∀ c : F64, F64.toNatSat mx c ≤ mx := by
    intro c
    cases c with
    | nan => simp [F64.toNatSat]
    | inf s => cases s <;> simp [F64.toNatSat]
    | fin s m => cases s <;> simp [F64.toNatSat]
  cases a with
  | nan => exact absurd rfl ha
  | inf s =>
    cases s with
    | true => simp [F64.toNatSat]
    | false =>
      have hb' : b = .inf false := by
        cases b with
        | nan => exact absurd rfl hb
        | inf t => cases t <;> simp [F64.key] at h ⊢
        | fin t n => simp [F64.key] at h
      rw [hb']
  | fin s m =>
    cases b with
    | nan => exact absurd rfl hb
    | inf t =>
      cases t with
      | true => simp [F64.key] at h
      | false => exact hle _
    | fin t n =>
      cases s with
      | true => simp [F64.toNatSat]
      | false =>
        simp only [F64.key, EReal.coe_le_coe_iff] at h
        have h : F64.val false m ≤ F64.val t n := by exact_mod_cast h
        have hfl : ∀ q : ℚ, q.num / (q.den : Int) = ⌊q⌋ := fun q => (Rat.floor_def q).symm
        cases t with
        | true =>
          simp only [F64.val, Bool.false_eq_true, if_false, if_true] at h
          simp only [F64.toNatSat, Bool.false_eq_true, if_false, if_true, hfl]
          have hm : m = 0 := le_antisymm (by linarith [hrb.1]) hra.1
          subst hm
          simp
        | false =>
          simp only [F64.val, Bool.false_eq_true, if_false] at h
          simp only [F64.toNatSat, Bool.false_eq_true, if_false, hfl]
          exact min_le_min_left _ (Int.toNat_le_toNat (Int.floor_le_floor h))

theorem toNatSat_le (mx : Nat) (c : F64) : F64.toNatSat mx c ≤ mx := by
  cases c with
  | nan => simp [F64.toNatSat]
  | inf s => cases s <;> simp [F64.toNatSat]
  | fin s m => cases s <;> simp [F64.toNatSat]

theorem div_toNat_mono (mx : Nat) {incr d1 d2 : F64} (hi : incr = .nan ∨ (∃ s, incr = .inf s) ∨ ∃ n, incr = .fin false n ∧ 0 ≤ n)
    (h1 : F64.NN d1) (h2 : F64.NN d2) (h : F64.key d1 ≤ F64.key d2) :
    F64.toNatSat mx (F64.div d1 incr) ≤ F64.toNatSat mx (F64.div d2 incr) := by
  have htop : d1 = .inf false → d2 = .inf false := by
    rintro rfl
    rcases F64.nn_cases h2 with rfl | ⟨t, n, rfl, -, -⟩
    · rfl
    · simp [F64.key] at h
  rcases hi with rfl | ⟨s, rfl⟩ | ⟨n, rfl, hn⟩
  · cases d1 <;> simp [F64.div, F64.toNatSat]
  · rcases F64.nn_cases h1 with rfl | ⟨t, m, rfl, -, -⟩
    · simp [F64.div, F64.toNatSat]
    · cases hx : xor t s <;> simp [F64.div, F64.toNatSat, hx]
  · rcases F64.nn_cases h1 with e | ⟨s, m, rfl, hv, hr⟩
    · rw [htop e, e]
    · rcases F64.nn_cases h2 with rfl | ⟨t, m', rfl, hv', hr'⟩
      · simpa [F64.div, F64.toNatSat] using toNatSat_le mx _
      · have hle : F64.val s m ≤ F64.val t m' := by
          simp only [F64.key, EReal.coe_le_coe_iff] at h
          exact_mod_cast h
        rcases hn.eq_or_lt with rfl | hn
        · by_cases hm : m = 0
          · simp [F64.div, hm, F64.toNatSat]
          · have hpos : 0 < F64.val s m := lt_of_le_of_ne hv (by cases s <;> simp [F64.val, Ne.symm, hm, eq_comm])
            have ht : t = false := by
              cases t with
              | false => rfl
              | true =>
                have := hr'.1
                have e : F64.val true m' = -m' := rfl
                rw [e] at hle
                linarith
            subst ht
            have hm' : m' ≠ 0 := by
              rintro rfl
              exact absurd (hpos.trans_le hle) (by simp [F64.val])
            simp only [F64.div, if_true, if_neg hm']
            simpa [F64.toNatSat] using toNatSat_le mx _
        · apply toNatSat_mono
          · simp only [F64.div, if_neg hn.ne']; exact F64.ok_round _ _
          · simp only [F64.div, if_neg hn.ne']; exact F64.ok_round _ _
          · exact F64.div_rep _ _
          · exact F64.div_rep _ _
          · rw [F64.key_div hr.1 hn, F64.key_div hr'.1 hn]
            apply F64.rkey_mono
            have : F64.val false n = n := rfl
            rw [this]
            exact div_le_div_of_nonneg_right hle hn.le

/-- finite and a double -/
def Dbl (x : F64) : Prop := F64.IsFin x ∧ F64.Rep x

theorem sub_nn {a b : F64} (ha : Dbl a) (hb : Dbl b) (h : F64.key a ≤ F64.key b) : F64.NN (F64.sub b a) := by
  obtain ⟨⟨s, m, rfl⟩, -⟩ := ha
  obtain ⟨⟨t, n, rfl⟩, -⟩ := hb
  refine ⟨F64.ok_add_fin _ _ _ _, ?_, F64.sub_rep _ _⟩
  rw [F64.key_sub]
  apply F64.rkey_nonneg
  simp only [F64.key, EReal.coe_le_coe_iff] at h
  have : F64.val s m ≤ F64.val t n := by exact_mod_cast h
  linarith

theorem cell_mono {start incr a b : F64} (hs : Dbl start) (ha : Dbl a) (hb : Dbl b)
    (hi : incr = .nan ∨ (∃ s, incr = .inf s) ∨ ∃ n, incr = .fin false n ∧ 0 ≤ n)
    (h0 : F64.key start ≤ F64.key a) (h : F64.key a ≤ F64.key b) : cell start incr a ≤ cell start incr b := by
  apply div_toNat_mono 65535 hi (sub_nn hs ha h0) (sub_nn hs hb (h0.trans h))
  obtain ⟨⟨s, m, rfl⟩, -⟩ := ha
  obtain ⟨⟨t, n, rfl⟩, -⟩ := hb
  obtain ⟨⟨u, k, rfl⟩, -⟩ := hs
  rw [F64.key_sub, F64.key_sub]
  apply F64.rkey_mono
  simp only [F64.key, EReal.coe_le_coe_iff] at h
  have : F64.val s m ≤ F64.val t n := by exact_mod_cast h
  linarith

theorem dyad_int {m : ℚ} (h : F64.Dyad m) : ∃ A : ℤ, m = A * (2:ℚ) ^ (-1074 : ℤ) := by
  obtain ⟨n, e, -, he, rfl⟩ := h
  obtain ⟨k, hk⟩ := Int.eq_ofNat_of_zero_le (show 0 ≤ e + 1074 by omega)
  refine ⟨n * 2 ^ k, ?_⟩
  have : e = (k : ℤ) + (-1074 : ℤ) := by omega
  rw [this, zpow_add₀ two_ne_zero, zpow_natCast]
  push_cast
  ring

/-- the size of a box of doubles is above zero -/
theorem size_pp {a b : F64} (ha : Dbl a) (hb : Dbl b) (h : F64.key a < F64.key b) : F64.PP (F64.abs (F64.sub b a)) := by
  have hnn := sub_nn ha hb h.le
  have hpos : 0 < F64.key (F64.sub b a) := by
    obtain ⟨⟨s, m, rfl⟩, hm⟩ := ha
    obtain ⟨⟨t, n, rfl⟩, hn⟩ := hb
    rw [F64.key_sub]
    apply F64.rkey_pos
    simp only [F64.key, EReal.coe_lt_coe_iff] at h
    have h : F64.val s m < F64.val t n := by exact_mod_cast h
    obtain ⟨A, hA⟩ : ∃ A : ℤ, F64.val s m = A * (2:ℚ) ^ (-1074 : ℤ) := by
      obtain ⟨A, hA⟩ := dyad_int hm.2.2
      cases s with
      | false => exact ⟨A, hA⟩
      | true => exact ⟨-A, by simp only [F64.val, if_true]; rw [hA]; push_cast; ring⟩
    obtain ⟨B, hB⟩ : ∃ B : ℤ, F64.val t n = B * (2:ℚ) ^ (-1074 : ℤ) := by
      obtain ⟨A, hA⟩ := dyad_int hn.2.2
      cases t with
      | false => exact ⟨A, hA⟩
      | true => exact ⟨-A, by simp only [F64.val, if_true]; rw [hA]; push_cast; ring⟩
    rw [hA, hB] at h ⊢
    have hp := F64.two_zpow_pos (-1074)
    generalize (2:ℚ) ^ (-1074 : ℤ) = u at h hp ⊢
    have hAB : A < B := by
      have := lt_of_mul_lt_mul_right h hp.le
      exact_mod_cast this
    have : (1:ℚ) ≤ B - A := by exact_mod_cast (by omega : (1:ℤ) ≤ B - A)
    nlinarith
  rcases F64.pp_cases ⟨hnn.1, hpos, hnn.2.2⟩ with e | ⟨m, e, hm, hr⟩
  · rw [e]; exact ⟨by simp [F64.abs, F64.ok], by simp [F64.abs, F64.key], trivial⟩
  · rw [e]; rw [e] at hnn hpos; exact ⟨hnn.1, hpos, hr⟩

theorem incr_cases {size : F64} (h : F64.PP size) (count : Nat) :
    F64.div size (F64.ofRat count) = .nan ∨ (∃ s, F64.div size (F64.ofRat count) = .inf s) ∨
      ∃ n, F64.div size (F64.ofRat count) = .fin false n ∧ 0 ≤ n := by
  have hc : F64.ofRat count = .inf false ∨ ∃ n, F64.ofRat (count : ℚ) = .fin false n ∧ 0 ≤ n := by
    have h0 : ¬ (count : ℚ) < 0 := not_lt.2 (Nat.cast_nonneg _)
    unfold F64.ofRat
    rw [if_neg h0]
    rcases F64.round_cases false (q := (count : ℚ)) (Nat.cast_nonneg _) with e | ⟨m, hm, e⟩
    · exact .inl e
    · exact .inr ⟨m, e, hm⟩
  rcases hc with e | ⟨n, e, hn⟩ <;> rw [e] <;> rcases F64.pp_cases h with rfl | ⟨m, rfl, hm, -⟩
  · exact .inl rfl
  · exact .inr (.inr ⟨0, rfl, le_rfl⟩)
  · exact .inr (.inl ⟨_, rfl⟩)
  · simp only [F64.div]
    split_ifs
    · exact .inl rfl
    · exact .inr (.inl ⟨_, rfl⟩)
    · rcases F64.round_cases (xor false false) (q := m / n) (div_nonneg hm.le hn) with e | ⟨k, hk, e⟩
      · exact .inr (.inl ⟨_, e⟩)
      · exact .inr (.inr ⟨k, e, hk⟩)

/-! ### the box of all elements -/

/-- a box of finite doubles, ordered -/
def GoodBox (b : BoundingBox3D F64) : Prop :=
  ∀ d, Dbl (Spec.at3 b.min d) ∧ Dbl (Spec.at3 b.max d) ∧ F64.key (Spec.at3 b.min d) < F64.key (Spec.at3 b.max d)

theorem dbl_ok {x : F64} (h : Dbl x) : F64.ok x := by obtain ⟨⟨s, m, rfl⟩, -⟩ := h; exact F64.noConfusion

theorem combine_at (a b : BoundingBox3D F64) (d : Fin 3) :
    Spec.at3 (a.combine b).min d = mn (Spec.at3 a.min d) (Spec.at3 b.min d) ∧
    Spec.at3 (a.combine b).max d = mx (Spec.at3 a.max d) (Spec.at3 b.max d) := by
  match d with
  | 0 => exact ⟨rfl, rfl⟩
  | 1 => exact ⟨rfl, rfl⟩
  | 2 => exact ⟨rfl, rfl⟩

theorem combine_good {a b : BoundingBox3D F64} (ha : GoodBox a) (hb : GoodBox b) : GoodBox (a.combine b) ∧
    (∀ d, F64.key (Spec.at3 (a.combine b).min d) ≤ F64.key (Spec.at3 a.min d)) ∧
    (∀ d, F64.key (Spec.at3 (a.combine b).min d) ≤ F64.key (Spec.at3 b.min d)) := by
  have hk : ∀ d, F64.key (Spec.at3 (a.combine b).min d) = min (F64.key (Spec.at3 a.min d)) (F64.key (Spec.at3 b.min d)) :=
    fun d => by rw [(combine_at a b d).1]; exact key_mn (α := F64) (dbl_ok (ha d).1) (dbl_ok (hb d).1)
  have hk' : ∀ d, F64.key (Spec.at3 (a.combine b).max d) = max (F64.key (Spec.at3 a.max d)) (F64.key (Spec.at3 b.max d)) :=
    fun d => by rw [(combine_at a b d).2]; exact key_mx (α := F64) (dbl_ok (ha d).2.1) (dbl_ok (hb d).2.1)
  refine ⟨fun d => ⟨?_, ?_, ?_⟩, fun d => ?_, fun d => ?_⟩
  · rw [(combine_at a b d).1]
    rcases mn_mem (Spec.at3 a.min d) (Spec.at3 b.min d) with e | e <;> rw [e]
    · exact (ha d).1
    · exact (hb d).1
  · rw [(combine_at a b d).2]
    rcases mx_mem (Spec.at3 a.max d) (Spec.at3 b.max d) with e | e <;> rw [e]
    · exact (ha d).2.1
    · exact (hb d).2.1
  · rw [hk, hk']
    exact (min_le_left _ _).trans_lt ((ha d).2.2.trans_le (le_max_left _ _))
  · rw [hk]; exact min_le_left _ _
  · rw [hk]; exact min_le_right _ _

theorem boundAll_some (bb : T → BoundingBox3D F64) : ∀ (data : List T) (a : BoundingBox3D F64), GoodBox a →
    (∀ e ∈ data, GoodBox (bb e)) →
    ∃ b, data.foldl (boundStep bb) (some a) = some b ∧ GoodBox b ∧
      (∀ d, F64.key (Spec.at3 b.min d) ≤ F64.key (Spec.at3 a.min d)) ∧
      ∀ e ∈ data, ∀ d, F64.key (Spec.at3 b.min d) ≤ F64.key (Spec.at3 (bb e).min d) := by
  intro data
  induction data with
  | nil => intro a ha _; exact ⟨a, rfl, ha, fun _ => le_rfl, by simp⟩
  | cons e data ih =>
    intro a ha h
    obtain ⟨h1, h2, h3⟩ := combine_good ha (h e (by simp))
    obtain ⟨b, hb, hg, hl, hall⟩ := ih (a.combine (bb e)) h1 (fun x hx => h x (by simp [hx]))
    refine ⟨b, hb, hg, fun d => (hl d).trans (h2 d), ?_⟩
    intro x hx d
    rcases List.mem_cons.1 hx with rfl | hx
    · exact (hl d).trans (h3 d)
    · exact hall x hx d

/-- **C84.** binary64, every grid (also with no cells in a direction), every list of elements with ordered boxes of finite
numbers: building the index succeeds (an empty list is the error `BoundingBoxMissing`); the candidates of a point are elements
in their order, none twice, and every element whose box contains the point in x and y is among them. -/
theorem c84_complete (bb : T → BoundingBox3D F64) (data : List T) (countX countY : Nat) (hg : ∀ e ∈ data, GoodBox (bb e)) :
    (data = [] → new bb data countX countY = some (.error .BoundingBoxMissing)) ∧
    (data ≠ [] → ∃ c, new bb data countX countY = some (.ok c) ∧ ∀ x y, ∃ L, c.candidates x y = some L ∧
      L.Sublist data ∧
      ∀ e ∈ data, (bb e).min.x <=. x → x <=. (bb e).max.x → (bb e).min.y <=. y → y <=. (bb e).max.y →
        Dbl x → Dbl y → e ∈ L) := by
  constructor
  · rintro rfl; rfl
  · intro hne
    obtain ⟨e0, rest, rfl⟩ := List.exists_cons_of_ne_nil hne
    obtain ⟨b, hb, hgb, hl0, hl⟩ := boundAll_some bb rest (bb e0) (hg e0 (by simp)) (fun e he => hg e (by simp [he]))
    have hall : ∀ e ∈ e0 :: rest, ∀ d, F64.key (Spec.at3 b.min d) ≤ F64.key (Spec.at3 (bb e).min d) := by
      intro e he d
      rcases List.mem_cons.1 he with rfl | he
      · exact hl0 d
      · exact hl e he d
    have hsx : F64.PP (F64.abs (F64.sub b.max.x b.min.x)) := size_pp (hgb 0).1 (hgb 0).2.1 (hgb 0).2.2
    have hsy : F64.PP (F64.abs (F64.sub b.max.y b.min.y)) := size_pp (hgb 1).1 (hgb 1).2.1 (hgb 1).2.2
    have hnew : ∀ {v : F64}, F64.PP v → Positive.new v = some ⟨v⟩ := by
      intro v hv
      unfold Positive.new
      rw [if_pos]
      rw [lt_iff]
      exact ⟨ok_zero, hv.1, by rw [key_zero]; exact hv.2.1⟩
    have hx : b.sizeX = some ⟨F64.abs (F64.sub b.max.x b.min.x)⟩ := hnew hsx
    have hy : b.sizeY = some ⟨F64.abs (F64.sub b.max.y b.min.y)⟩ := hnew hsy
    have hbound : boundAll bb (e0 :: rest) = some b := hb
    unfold new
    simp only [hbound, hx, hy, Option.bind_eq_bind, Option.bind_some]
    refine ⟨_, rfl, fun x y => ⟨_, candidates_eq bb (e0 :: rest) _ _ _ _ x y, List.filter_sublist, ?_⟩⟩
    intro e he h1 h2 h3 h4 hdx hdy
    rw [List.mem_filter]
    refine ⟨he, ?_⟩
    rw [decide_eq_true_eq]
    rw [le_iff] at h1 h2 h3 h4
    have hge := hg e he
    have hae := hall e he
    refine ⟨cell_mono (hgb 0).1 (hge 0).1 hdx (incr_cases hsx countX) (hae 0) h1.2.2,
      cell_mono (hgb 0).1 hdx (hge 0).2.1 (incr_cases hsx countX) ((hae 0).trans h1.2.2) h2.2.2,
      cell_mono (hgb 1).1 (hge 1).1 hdy (incr_cases hsy countY) (hae 1) h3.2.2,
      cell_mono (hgb 1).1 hdy (hge 1).2.1 (incr_cases hsy countY) ((hae 1).trans h3.2.2) h4.2.2⟩

/-- three boxes on a grid of two times two cells -/
def exampleBoxes : List (BoundingBox3D F64) :=
  [⟨⟨f 0, f 0, f 0⟩, ⟨f 1, f 1, f 1⟩⟩, ⟨⟨f 3, f 3, f 0⟩, ⟨f 4, f 4, f 1⟩⟩, ⟨⟨f 1, f 1, f 0⟩, ⟨f 3, f 3, f 1⟩⟩]

example : ∀ e ∈ exampleBoxes, GoodBox e := by
  have hd : ∀ q : ℚ, F64.IsFin (f q) → Dbl (f q) := fun q h => ⟨h, F64.ofRat_rep q⟩
  have h0 : Dbl (f 0) := hd 0 ⟨false, 0, by decide +kernel⟩
  have h1 : Dbl (f 1) := hd 1 ⟨false, 1, by decide +kernel⟩
  have h3 : Dbl (f 3) := hd 3 ⟨false, 3, by decide +kernel⟩
  have h4 : Dbl (f 4) := hd 4 ⟨false, 4, by decide +kernel⟩
  have lt : ∀ {a b : F64}, F64.lt a b = true → F64.key a < F64.key b := fun h => ((F64.lt_iff _ _).1 h).2.2
  have l01 := lt (show F64.lt (f 0) (f 1) = true by decide +kernel)
  have l34 := lt (show F64.lt (f 3) (f 4) = true by decide +kernel)
  have l13 := lt (show F64.lt (f 1) (f 3) = true by decide +kernel)
  intro e he
  simp only [exampleBoxes, List.mem_cons, List.not_mem_nil, or_false] at he
  unfold GoodBox
  rw [Spec.forall_fin3]
  rcases he with rfl | rfl | rfl
  · exact ⟨⟨h0, h1, l01⟩, ⟨h0, h1, l01⟩, ⟨h0, h1, l01⟩⟩
  · exact ⟨⟨h3, h4, l34⟩, ⟨h3, h4, l34⟩, ⟨h0, h1, l01⟩⟩
  · exact ⟨⟨h1, h3, l13⟩, ⟨h1, h3, l13⟩, ⟨h0, h1, l01⟩⟩

/-- the index is not trivial: elements in other cells are not candidates -/
example : (new id exampleBoxes 2 2).map (fun r => r.toOption.map fun c =>
    ((c.candidates (f (1/2)) (f (1/2))).map (·.length), (c.candidates (f (7/2)) (f (7/2))).map (·.length))) =
    some (some (some 2, some 2)) := by decide +kernel

theorem boundAll_real (bb : T → BoundingBox3D ℝ) : ∀ (data : List T) (a b : BoundingBox3D ℝ),
    data.foldl (boundStep bb) (some a) = some b →
    (b.min.x ≤ a.min.x ∧ b.min.y ≤ a.min.y) ∧ ∀ e ∈ data, b.min.x ≤ (bb e).min.x ∧ b.min.y ≤ (bb e).min.y := by
  have hmin : ∀ a b : ℝ, mn a b = min a b := by
    intro a b
    unfold mn
    rcases lt_or_ge b a with h | h
    · simp [h, h.le]
    · simp [not_lt.2 h, h]
  intro data
  induction data with
  | nil =>
    intro a b h
    simp only [List.foldl_nil, Option.some.injEq] at h
    subst h
    simp
  | cons e data ih =>
    intro a b h
    obtain ⟨⟨h1, h2⟩, h3⟩ := ih _ b h
    have ex : (a.combine (bb e)).min.x = mn a.min.x (bb e).min.x := rfl
    have ey : (a.combine (bb e)).min.y = mn a.min.y (bb e).min.y := rfl
    rw [ex, hmin] at h1
    rw [ey, hmin] at h2
    refine ⟨⟨h1.trans (min_le_left _ _), h2.trans (min_le_left _ _)⟩, ?_⟩
    intro x hx
    rcases List.mem_cons.1 hx with rfl | hx
    · exact ⟨h1.trans (min_le_right _ _), h2.trans (min_le_right _ _)⟩
    · exact h3 x hx

/-- **C84**, the candidates are near (exact arithmetic): inside the grid, and below the 65535 cells a `u16` can count, the box of
a candidate is less than one cell away from the point in x (and likewise in y). -/
theorem c84_near (bb : T → BoundingBox3D ℝ) (data : List T) (countX countY : Nat) (c : Cluster T ℝ)
    (hv : ∀ e ∈ data, (bb e).min.x < (bb e).max.x ∧ (bb e).min.y < (bb e).max.y)
    (hc : new bb data countX countY = some (.ok c)) (hx : 0 < c.incrX) (hy : 0 < c.incrY) (x y : ℝ)
    (hx0 : c.startX ≤ x) (hy0 : c.startY ≤ y) (hx1 : (x - c.startX) / c.incrX < 65535)
    (hy1 : (y - c.startY) / c.incrY < 65535) (L : List T) (hL : c.candidates x y = some L) :
    ∀ e ∈ L, (bb e).min.x < x + c.incrX ∧ x - c.incrX < (bb e).max.x ∧
      (bb e).min.y < y + c.incrY ∧ y - c.incrY < (bb e).max.y := by
  unfold new at hc
  cases hb : boundAll bb data with
  | none => simp [hb] at hc
  | some b =>
    simp only [hb] at hc
    cases h1 : b.sizeX with
    | none => simp [h1] at hc
    | some sx =>
      cases h2 : b.sizeY with
      | none => simp [h1, h2] at hc
      | some sy =>
        simp only [h1, h2, Option.bind_eq_bind, Option.bind_some, pure, Option.some.injEq, Except.ok.injEq] at hc
        subst hc
        rw [candidates_eq, Option.some.injEq] at hL
        subst hL
        dsimp only at hx hy hx0 hy0 hx1 hy1 ⊢
        have key : ∀ {s i p lo hi : ℝ}, 0 < i → s ≤ p → (p - s) / i < 65535 → cell s i lo ≤ cell s i p →
            cell s i p ≤ cell s i hi → s ≤ hi → lo < p + i ∧ p - i < hi := by
          intro s i p lo hi hi0 hsp hlt h1 h2 hsh
          unfold cell at h1 h2
          simp only [Real.scalar_toNatSat] at h1 h2
          have hp0 : 0 ≤ (p - s) / i := div_nonneg (sub_nonneg.2 hsp) hi0.le
          have hf : ⌊(p - s) / i⌋₊ < 65535 := (Nat.floor_lt hp0).2 (by exact_mod_cast hlt)
          rw [min_eq_right hf.le] at h1 h2
          constructor
          · have h3 : ⌊(lo - s) / i⌋₊ ≤ ⌊(p - s) / i⌋₊ := by
              rcases min_le_iff.1 h1 with h | h
              · omega
              · exact h
            have h4 := Nat.lt_floor_add_one ((lo - s) / i)
            have h5 := Nat.floor_le hp0
            have h6 : ((⌊(lo - s) / i⌋₊ : ℕ) : ℝ) ≤ ⌊(p - s) / i⌋₊ := by exact_mod_cast h3
            have h7 : (lo - s) / i < (p - s) / i + 1 := by linarith
            rw [div_lt_iff₀ hi0, add_mul, div_mul_cancel₀ _ hi0.ne', one_mul] at h7
            linarith
          · have h3 : ⌊(p - s) / i⌋₊ ≤ ⌊(hi - s) / i⌋₊ := h2.trans (min_le_right _ _)
            have h4 := Nat.lt_floor_add_one ((p - s) / i)
            have h5 := Nat.floor_le (div_nonneg (sub_nonneg.2 hsh) hi0.le)
            have h6 : ((⌊(p - s) / i⌋₊ : ℕ) : ℝ) ≤ ⌊(hi - s) / i⌋₊ := by exact_mod_cast h3
            have h7 : (p - s) / i < (hi - s) / i + 1 := by linarith
            rw [div_lt_iff₀ hi0, add_mul, div_mul_cancel₀ _ hi0.ne', one_mul] at h7
            linarith
        intro e he
        rw [List.mem_filter, decide_eq_true_eq] at he
        obtain ⟨hed, k1, k2, k3, k4⟩ := he
        have hstart : b.min.x ≤ (bb e).min.x ∧ b.min.y ≤ (bb e).min.y := by
          cases data with
          | nil => simp at hed
          | cons e0 rest =>
            obtain ⟨h0, h1⟩ := boundAll_real bb rest (bb e0) b hb
            rcases List.mem_cons.1 hed with rfl | h
            · exact h0
            · exact h1 e h
        have hve := hv e hed
        have hX := key hx hx0 hx1 k1 k2 (hstart.1.trans hve.1.le)
        have hY := key hy hy0 hy1 k3 k4 (hstart.2.trans hve.2.le)
        exact ⟨hX.1, hX.2, hY.1, hY.2⟩

end Cluster

section
open Cluster
/-- the hypotheses of `c84_near` are met by one box with two cells along each axis -/
example : ∃ (c : Cluster (BoundingBox3D ℝ) ℝ) (L : List (BoundingBox3D ℝ)),
    Cluster.new id [(⟨⟨0, 0, 0⟩, ⟨2, 2, 2⟩⟩ : BoundingBox3D ℝ)] 2 2 = some (.ok c) ∧ c.incrX = 1 ∧ c.incrY = 1 ∧ c.startX = 0 ∧ c.startY = 0 ∧
      c.candidates (1 / 2) (1 / 2) = some L := by
  have h : ⌊(2 : ℝ)⁻¹⌋₊ = 0 := by rw [Nat.floor_eq_zero]; norm_num
  simp [Cluster.new, Cluster.boundAll, Cluster.boundStep, BoundingBox3D.sizeX, BoundingBox3D.sizeY, Positive.new_real,
    Cluster.candidates, Cluster.addElement, Cluster.cell, Cluster.inclusive, List.range', Cluster.pushAt, h, List.lookup]
end

end R3D
