import Verif.Lemmas.Sqrt
import Verif.Model.Point
/-!
Order facts about distances computed with doubles.
-/
namespace R3D
namespace F64

/-- not negative, no NaN, a number of the format -/
def NonNeg (a : F64) : Prop := a = .inf false ∨ ∃ m, a = .fin false m ∧ Rep (.fin false m)

theorem NonNeg.ok {a : F64} (h : NonNeg a) : ok a := by
  rcases h with rfl | ⟨m, rfl, -⟩ <;> exact F64.noConfusion

theorem NonNeg.rep {a : F64} (h : NonNeg a) : Rep a := by
  rcases h with rfl | ⟨m, rfl, h⟩
  · trivial
  · exact h

theorem key_fin_false (m : ℚ) : key (.fin false m) = ((m : ℝ) : EReal) := by simp [key, val]
theorem key_inf_false : key (.inf false) = ⊤ := by simp [key]

theorem NonNeg.key {a : F64} (h : NonNeg a) : 0 ≤ key a := by
  rcases h with rfl | ⟨m, rfl, h⟩
  · rw [key_inf_false]; exact le_top
  · rw [key_fin_false]; exact_mod_cast h.1

theorem round_nonNeg (q : ℚ) : NonNeg (round false q) := by
  have h := round_rep false q
  rw [round_eq] at h ⊢
  split_ifs at h ⊢
  · exact .inl rfl
  · exact .inr ⟨_, rfl, h⟩

theorem mul_self_nonNeg {a : F64} (h : ok a) : NonNeg (a * a) := by
  show NonNeg (F64.mul a a)
  cases a with
  | nan => exact absurd rfl h
  | inf s => left; simp [F64.mul]
  | fin s m => simp only [F64.mul, Bool.xor_self]; exact round_nonNeg _

theorem add_nonNeg {a b : F64} (ha : NonNeg a) (hb : NonNeg b) : NonNeg (a + b) := by
  show NonNeg (F64.add a b)
  have hr := add_rep a b
  rcases ha with rfl | ⟨m, rfl, hm⟩ <;> rcases hb with rfl | ⟨n, rfl, hn⟩
  · left; simp [F64.add]
  · left; simp [F64.add]
  · left; simp [F64.add]
  · simp only [F64.add, val, Bool.false_eq_true, if_false, Bool.and_self]
    split_ifs
    · exact .inr ⟨0, rfl, fin_zero_rep _⟩
    · unfold ofRat
      rw [if_neg (not_lt.2 (add_nonneg hm.1 hn.1))]
      exact round_nonNeg _

theorem key_le_add_left {a b : F64} (ha : NonNeg a) (hb : NonNeg b) : key a ≤ key (a + b) := by
  show key a ≤ key (F64.add a b)
  rcases ha with rfl | ⟨m, rfl, hm⟩ <;> rcases hb with rfl | ⟨n, rfl, hn⟩
  · simp [F64.add]
  · simp [F64.add]
  · simp [F64.add, key]
  · rw [key_add]
    have h1 := rkey_val hm
    rw [show key (.fin false m) = rkey (val false m) by rw [h1, key_fin_false]; simp [val]]
    apply rkey_mono
    simp only [val, Bool.false_eq_true, if_false]
    linarith [hn.1]

theorem key_le_add_right {a b : F64} (ha : NonNeg a) (hb : NonNeg b) : key b ≤ key (a + b) := by
  have : F64.add a b = F64.add b a := by
    rcases ha with rfl | ⟨m, rfl, hm⟩ <;> rcases hb with rfl | ⟨n, rfl, hn⟩ <;> simp [F64.add, add_comm]
  show key b ≤ key (F64.add a b)
  rw [this]
  exact key_le_add_left hb ha

theorem sqrt_fin_pos {m : ℚ} (h : 0 < m) : F64.sqrt (.fin false m) = round false (sqrtArg m) := by
  simp [F64.sqrt, h.ne', sqrtMag_eq h]

theorem sqrt_nonNeg {a : F64} (ha : NonNeg a) : NonNeg (Scalar.sqrt a) := by
  show NonNeg (F64.sqrt a)
  rcases ha with rfl | ⟨m, rfl, hm⟩
  · exact .inl rfl
  · rcases hm.1.eq_or_lt with h | h
    · subst h; exact .inr ⟨0, rfl, fin_zero_rep _⟩
    · rw [sqrt_fin_pos h]; exact round_nonNeg _

theorem key_sqrt_mono {a b : F64} (ha : NonNeg a) (hb : NonNeg b) (h : key a ≤ key b) :
    key (Scalar.sqrt a) ≤ key (Scalar.sqrt b) := by
  show key (F64.sqrt a) ≤ key (F64.sqrt b)
  have hb' := (sqrt_nonNeg hb).key
  rcases hb with rfl | ⟨n, rfl, hn⟩
  · simp [F64.sqrt, key]
  · rcases ha with rfl | ⟨m, rfl, hm⟩
    · rw [key_inf_false, key_fin_false, top_le_iff] at h
      exact absurd h (EReal.coe_ne_top _)
    · rw [key_fin_false, key_fin_false] at h
      have hmn : m ≤ n := by exact_mod_cast h
      rcases hm.1.eq_or_lt with h0 | h0
      · subst h0
        have : key (F64.sqrt (.fin false 0)) = 0 := by simp [F64.sqrt, key, val]
        rw [this]; exact hb'
      · rw [sqrt_fin_pos h0, sqrt_fin_pos (h0.trans_le hmn)]
        exact key_round_mono (sqrtArg_mono h0 hmn)

/-- squaring and taking the root of a root does not make it smaller -/
theorem key_sqrt_mul_self {S : F64} (hS : NonNeg S) :
    key (Scalar.sqrt S) ≤ key (Scalar.sqrt (Scalar.sqrt S * Scalar.sqrt S)) := by
  show key (F64.sqrt S) ≤ key (F64.sqrt (F64.mul (F64.sqrt S) (F64.sqrt S)))
  rcases hS with rfl | ⟨m, rfl, hm⟩
  · simp [F64.sqrt, F64.mul]
  · rcases hm.1.eq_or_lt with h0 | h0
    · subst h0; simp [F64.sqrt, F64.mul, round_zero]
    · obtain ⟨hT, hle⟩ := sqrtVal_rnd_sq h0 hm.2.2
      rw [sqrt_fin_pos h0, round_eq]
      split_ifs with h1
      · simp [F64.sqrt, F64.mul]
      · simp only [F64.mul, Bool.xor_self]
        change key (.fin false (sqrtVal m)) ≤ key (F64.sqrt (round false (sqrtVal m * sqrtVal m)))
        rw [round_eq]
        split_ifs with h2
        · simp [F64.sqrt, key]
        · rw [sqrt_fin_pos hT, key_round_false, key_fin_false]
          split_ifs with h3
          · exact le_top
          · exact_mod_cast hle

/-- the same for numbers that are not too small -/
theorem key_sqrt_mul_self_of_le {D : F64} (hD : NonNeg D) (h : key (.fin false (2 ^ (-511 : ℤ))) ≤ key D) :
    key D ≤ key (Scalar.sqrt (D * D)) := by
  show key D ≤ key (F64.sqrt (F64.mul D D))
  rcases hD with rfl | ⟨m, rfl, hm⟩
  · simp [F64.sqrt, F64.mul]
  · rw [key_fin_false, key_fin_false] at h
    have h' : (2:ℚ) ^ (-511 : ℤ) ≤ m := by exact_mod_cast h
    obtain ⟨hT, hle⟩ := sqrtVal_rnd_sq_of_le hm.2.2 h'
    simp only [F64.mul, Bool.xor_self]
    rw [round_eq]
    split_ifs with h2
    · simp [F64.sqrt, key]
    · rw [sqrt_fin_pos hT, key_round_false, key_fin_false]
      split_ifs with h3
      · exact le_top
      · exact_mod_cast hle

/-! ### differences -/

theorem sub_form (s t : Bool) (m n : ℚ) :
    ∃ b, F64.sub (.fin s m) (.fin t n) = round b |val s m - val t n| := by
  simp only [F64.sub, F64.neg, F64.add, val_neg, ← sub_eq_add_neg]
  split_ifs with h
  · rw [h, abs_zero]; exact ⟨_, (round_zero _).symm⟩
  · unfold ofRat
    split_ifs with h1
    · exact ⟨true, by rw [abs_of_neg h1]⟩
    · exact ⟨false, by rw [abs_of_nonneg (not_lt.1 h1)]⟩

theorem abs_round (b : Bool) (q : ℚ) : F64.abs (round b q) = round false q := by
  rw [round_eq, round_eq]; split_ifs <;> rfl

/-- a distance `D` not greater than the exact difference is not greater than the rounded one … -/
theorem key_le_abs_sub {d : ℚ} (hd : Rep (.fin false d)) {s t : Bool} {m n : ℚ} (h : d ≤ |val s m - val t n|) :
    key (.fin false d) ≤ key (Scalar.abs (F64.fin s m - F64.fin t n)) := by
  show _ ≤ key (F64.abs (F64.sub _ _))
  obtain ⟨b, hb⟩ := sub_form s t m n
  rw [hb, abs_round, ← round_exact false hd]
  exact key_round_mono h

/-- … and the same for the squares -/
theorem key_le_sq_sub {d : ℚ} (hd : Rep (.fin false d)) {s t : Bool} {m n : ℚ} (h : d ≤ |val s m - val t n|) :
    key (F64.fin false d * F64.fin false d) ≤ key (Scalar.sq (F64.fin s m - F64.fin t n)) := by
  show key (F64.mul _ _) ≤ key (F64.mul (F64.sub _ _) (F64.sub _ _))
  obtain ⟨b, hb⟩ := sub_form s t m n
  have h1 : d ≤ rnd |val s m - val t n| := by
    have := rnd_mono h
    rwa [rnd_exact hd.2.2] at this
  rw [hb, round_eq]
  split_ifs with h2
  · simp [F64.mul, key]
  · simp only [F64.mul, Bool.xor_self]
    exact key_round_mono (mul_le_mul h1 h1 hd.1 (hd.1.trans h1))

theorem ok_sub_fin {a b : F64} (ha : IsFin a) (hb : IsFin b) : ok (a - b) := by
  obtain ⟨s, m, rfl⟩ := ha
  obtain ⟨t, n, rfl⟩ := hb
  obtain ⟨b, hb⟩ := sub_form s t m n
  show ok (F64.sub _ _)
  rw [hb, round_eq]
  split_ifs <;> exact F64.noConfusion

theorem ok_add_fin_nonNeg {a b : F64} (ha : IsFin a) (hb : NonNeg b) : ok (a + b) := by
  obtain ⟨s, m, rfl⟩ := ha
  show ok (F64.add _ _)
  rcases hb with rfl | ⟨n, rfl, -⟩
  · exact F64.noConfusion
  · simp only [F64.add]
    split_ifs
    · exact F64.noConfusion
    · rcases ofRat_ok (val s m + val false n) with ⟨t, h⟩ | ⟨t, k, h⟩ <;> rw [h] <;> exact F64.noConfusion

theorem ok_sub_nonNeg {a b : F64} (ha : IsFin a) (hb : NonNeg b) : ok (a - b) := by
  rcases hb with rfl | ⟨n, rfl, -⟩
  · obtain ⟨s, m, rfl⟩ := ha
    exact F64.noConfusion
  · exact ok_sub_fin ha ⟨_, _, rfl⟩

/-- finite number of the format -/
def Num (a : F64) : Prop := IsFin a ∧ Rep a

theorem Num.ok {a : F64} (h : Num a) : ok a := by
  obtain ⟨⟨s, m, rfl⟩, -⟩ := h; exact F64.noConfusion

/-- a border right of the center is only passed by numbers farther away than `D` -/
theorem border_right {s v x D : F64} (hs : Num s) (hv : Num v) (hx : Num x) (hD : NonNeg D)
    (h : key (s + D) < key v) (hvx : key v ≤ key x) :
    key D ≤ key (Scalar.abs (s - x)) ∧ key (D * D) ≤ key (Scalar.sq (s - x)) := by
  obtain ⟨⟨a, m, rfl⟩, rs⟩ := hs
  obtain ⟨⟨b, n, rfl⟩, rv⟩ := hv
  obtain ⟨⟨c, k, rfl⟩, rx⟩ := hx
  rcases hD with rfl | ⟨d, rfl, rd⟩
  · change key (F64.add _ _) < _ at h
    simp [F64.add, key] at h
  · change key (F64.add _ _) < _ at h
    rw [key_add] at h
    have h1 : val a m + d < val b n := by
      by_contra hc
      have := rkey_mono (not_lt.1 hc)
      rw [rkey_val rv] at this
      exact absurd h (not_lt.2 this)
    have h2 : val b n ≤ val c k := by
      have : ((val b n : ℚ) : ℝ) ≤ ((val c k : ℚ) : ℝ) := by
        have := hvx
        simp only [key] at this
        exact_mod_cast this
      exact_mod_cast this
    have h3 : d ≤ |val a m - val c k| := by
      rw [abs_sub_comm]; exact le_trans (by linarith) (le_abs_self _)
    exact ⟨key_le_abs_sub rd h3, key_le_sq_sub rd h3⟩

theorem border_left {s v x D : F64} (hs : Num s) (hv : Num v) (hx : Num x) (hD : NonNeg D)
    (h : key v < key (s - D)) (hvx : key x ≤ key v) :
    key D ≤ key (Scalar.abs (s - x)) ∧ key (D * D) ≤ key (Scalar.sq (s - x)) := by
  obtain ⟨⟨a, m, rfl⟩, rs⟩ := hs
  obtain ⟨⟨b, n, rfl⟩, rv⟩ := hv
  obtain ⟨⟨c, k, rfl⟩, rx⟩ := hx
  rcases hD with rfl | ⟨d, rfl, rd⟩
  · change _ < key (F64.sub _ _) at h
    simp [F64.sub, F64.neg, F64.add, key] at h
  · change _ < key (F64.sub _ _) at h
    rw [key_sub] at h
    have h1 : val b n < val a m - d := by
      by_contra hc
      have := rkey_mono (not_lt.1 hc)
      rw [rkey_val rv] at this
      exact absurd h (not_lt.2 this)
    have h2 : val c k ≤ val b n := by
      have : ((val c k : ℚ) : ℝ) ≤ ((val b n : ℚ) : ℝ) := by
        have := hvx
        simp only [key] at this
        exact_mod_cast this
      exact_mod_cast this
    have h3 : d ≤ |val a m - val c k| := le_trans (by linarith) (le_abs_self _)
    exact ⟨key_le_abs_sub rd h3, key_le_sq_sub rd h3⟩

end F64

/-- all coordinates are finite numbers of the format -/
def Point3D.Num (p : Point3D F64) : Prop := F64.Num p.x ∧ F64.Num p.y ∧ F64.Num p.z

namespace Point3D
open F64

theorem sq_sub_nonNeg {a b : F64} (ha : F64.Num a) (hb : F64.Num b) : NonNeg (Scalar.sq (a - b)) :=
  mul_self_nonNeg (ok_sub_fin ha.1 hb.1)

theorem sqrDist_nonNeg {p q : Point3D F64} (hp : p.Num) (hq : q.Num) : NonNeg (p.sqrDist q) :=
  add_nonNeg (add_nonNeg (sq_sub_nonNeg hp.1 hq.1) (sq_sub_nonNeg hp.2.1 hq.2.1)) (sq_sub_nonNeg hp.2.2 hq.2.2)

theorem dist_nonNeg_f64 {p q : Point3D F64} (hp : p.Num) (hq : q.Num) : NonNeg (p.dist q) := sqrt_nonNeg (sqrDist_nonNeg hp hq)

theorem sq_le_sqrDist {p q : Point3D F64} (hp : p.Num) (hq : q.Num) :
    key (Scalar.sq (p.x - q.x)) ≤ key (p.sqrDist q) ∧ key (Scalar.sq (p.y - q.y)) ≤ key (p.sqrDist q) ∧
      key (Scalar.sq (p.z - q.z)) ≤ key (p.sqrDist q) := by
  have hx := sq_sub_nonNeg hp.1 hq.1
  have hy := sq_sub_nonNeg hp.2.1 hq.2.1
  have hz := sq_sub_nonNeg hp.2.2 hq.2.2
  have h1 := key_le_add_left (add_nonNeg hx hy) hz
  exact ⟨(key_le_add_left hx hy).trans h1, (key_le_add_right hx hy).trans h1, key_le_add_right (add_nonNeg hx hy) hz⟩

end Point3D
end R3D
