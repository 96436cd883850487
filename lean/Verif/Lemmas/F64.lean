import Verif.Lemmas.Scalar
import Mathlib.Data.Rat.Floor
import Mathlib.Tactic.Linarith
import Mathlib.Tactic.Positivity
import Mathlib.Algebra.Order.Field.Power
/-!
Rounding to binary64 is monotone, exact on representable numbers, and keeps signs.
-/
namespace R3D.F64

theorem ilog2_spec {q : ℚ} (h : 0 < q) : (2:ℚ) ^ ilog2 q ≤ q ∧ q < 2 ^ (ilog2 q + 1) := by
  have hn : q.num.natAbs ≠ 0 := by
    simp [Int.natAbs_eq_zero, h.ne']
  have hd : q.den ≠ 0 := q.den_nz
  have a1 := Nat.log2_self_le hn
  have a2 := Nat.lt_log2_self (n := q.num.natAbs)
  have b1 := Nat.log2_self_le hd
  have b2 := Nat.lt_log2_self (n := q.den)
  generalize ha : Nat.log2 q.num.natAbs = a at a1 a2
  generalize hb : Nat.log2 q.den = b at b1 b2
  have hnum : (q.num.natAbs : ℚ) = q * q.den := by
    have h1 : (0:ℤ) < q.num := Rat.num_pos.2 h
    have h2 : ((q.num.natAbs : ℤ) : ℚ) = (q.num : ℚ) := by rw [Int.natAbs_of_nonneg h1.le]
    have h3 : (q.num.natAbs : ℚ) = (q.num : ℚ) := by rw [← h2, Int.cast_natCast]
    rw [h3, Rat.mul_den_eq_num]
  have a1' : (2:ℚ) ^ a ≤ q * q.den := by rw [← hnum]; exact_mod_cast a1
  have a2' : q * q.den < (2:ℚ) ^ (a + 1) := by rw [← hnum]; exact_mod_cast a2
  have b1' : (2:ℚ) ^ b ≤ q.den := by exact_mod_cast b1
  have b2' : (q.den : ℚ) < (2:ℚ) ^ (b + 1) := by exact_mod_cast b2
  have hdp : (0:ℚ) < q.den := by exact_mod_cast Nat.pos_of_ne_zero hd
  have lo : (2:ℚ) ^ ((a:ℤ) - b - 1) < q := by
    have e : (2:ℚ) ^ ((a:ℤ) - b - 1) = 2 ^ a / 2 ^ (b + 1) := by
      rw [show (a:ℤ) - b - 1 = (a:ℤ) - ((b + 1 : ℕ) : ℤ) by push_cast; ring, zpow_sub₀ two_ne_zero,
        zpow_natCast, zpow_natCast]
    rw [e, div_lt_iff₀ (by positivity)]
    calc (2:ℚ) ^ a ≤ q * q.den := a1'
      _ < q * 2 ^ (b + 1) := mul_lt_mul_of_pos_left b2' h
  have hi : q < (2:ℚ) ^ ((a:ℤ) - b + 1) := by
    have e : (2:ℚ) ^ ((a:ℤ) - b + 1) = 2 ^ (a + 1) / 2 ^ b := by
      rw [show (a:ℤ) - b + 1 = ((a + 1 : ℕ) : ℤ) - (b : ℤ) by push_cast; ring, zpow_sub₀ two_ne_zero,
        zpow_natCast, zpow_natCast]
    rw [e, lt_div_iff₀ (by positivity)]
    calc q * 2 ^ b ≤ q * q.den := mul_le_mul_of_nonneg_left b1' h.le
      _ < 2 ^ (a + 1) := a2'
  unfold ilog2
  rw [ha, hb]
  simp only
  split_ifs with hc
  · exact ⟨lo.le, by rw [sub_add_cancel]; exact hc⟩
  · exact ⟨not_lt.1 hc, hi⟩

theorem ilog2_mono {p q : ℚ} (hp : 0 < p) (h : p ≤ q) : ilog2 p ≤ ilog2 q := by
  have h1 := (ilog2_spec hp).1
  have h2 := (ilog2_spec (hp.trans_le h)).2
  have : (2:ℚ) ^ ilog2 p < 2 ^ (ilog2 q + 1) := (h1.trans h).trans_lt h2
  rw [zpow_lt_zpow_iff_right₀ one_lt_two] at this
  omega

theorem roundEven_eq (q : ℚ) : roundEven q =
    if q - ⌊q⌋ < 1 / 2 then ⌊q⌋ else if 1 / 2 < q - ⌊q⌋ then ⌊q⌋ + 1 else if ⌊q⌋ % 2 = 0 then ⌊q⌋ else ⌊q⌋ + 1 := by
  unfold roundEven
  rw [← Rat.floor_def q]
  simp only
  rfl

theorem roundEven_bounds (q : ℚ) : ⌊q⌋ ≤ roundEven q ∧ roundEven q ≤ ⌊q⌋ + 1 := by
  rw [roundEven_eq]; split_ifs <;> omega

theorem roundEven_mono {p q : ℚ} (h : p ≤ q) : roundEven p ≤ roundEven q := by
  have hf : ⌊p⌋ ≤ ⌊q⌋ := Int.floor_le_floor h
  rcases lt_or_eq_of_le hf with hf | hf
  · have h1 := (roundEven_bounds p).2
    have h2 := (roundEven_bounds q).1
    omega
  · rw [roundEven_eq, roundEven_eq, hf]
    split_ifs <;> first | omega | (exfalso; linarith)

theorem roundEven_int (n : ℤ) : roundEven (n : ℚ) = n := by
  rw [roundEven_eq]; simp

theorem roundEven_near (q : ℚ) : |(roundEven q : ℚ) - q| ≤ 1 / 2 := by
  have h1 := Int.floor_le q
  have h2 := Int.lt_floor_add_one q
  rw [roundEven_eq]
  split_ifs <;> rw [abs_le] <;> push_cast <;> constructor <;> linarith

/-- exponent of the last bit -/
def lsb (q : ℚ) : ℤ := max (ilog2 q - 52) (-1074)

/-- rounding without overflow -/
def rnd (q : ℚ) : ℚ := if q ≤ 0 then 0 else (roundEven (q * (2:ℚ) ^ (-lsb q)) : ℚ) * (2:ℚ) ^ lsb q

theorem round_eq (s : Bool) (q : ℚ) :
    round s q = if (2:ℚ) ^ (1024 : ℤ) ≤ rnd q then .inf s else .fin s (rnd q) := by
  unfold round rnd
  split_ifs with h1 h2 h3 h3
  · exact absurd (zpow_pos (two_pos : (0:ℚ) < 2) 1024) (not_lt.2 h2)
  · rfl
  · simp only; rw [if_pos (by exact h3)]
  · simp only; rw [if_neg (by exact h3)]; rfl

theorem two_zpow_pos (e : ℤ) : (0:ℚ) < 2 ^ e := zpow_pos two_pos e

theorem rnd_nonneg (q : ℚ) : 0 ≤ rnd q := by
  unfold rnd
  split_ifs with h
  · exact le_rfl
  · push Not at h
    have : (0:ℚ) ≤ roundEven (q * (2:ℚ) ^ (-lsb q)) := by
      exact_mod_cast roundEven_nonneg (mul_pos h (two_zpow_pos _)).le
    exact mul_nonneg this (two_zpow_pos _).le

theorem rnd_of_nonpos {q : ℚ} (h : q ≤ 0) : rnd q = 0 := by rw [rnd, if_pos h]

/-- an integer multiple of `2^e`, with `e` at least the exponent of `q`, is not crossed by rounding -/
theorem le_rnd {q : ℚ} (h : 0 < q) {e : ℤ} (he : lsb q ≤ e) (m : ℤ) (hm : m * (2:ℚ) ^ e ≤ q) :
    m * (2:ℚ) ^ e ≤ rnd q := by
  rw [rnd, if_neg (not_le.2 h)]
  obtain ⟨k, hk⟩ : ∃ k : ℕ, e = lsb q + k := ⟨(e - lsb q).toNat, by omega⟩
  have e1 : m * (2:ℚ) ^ e = ((m * 2 ^ k : ℤ) : ℚ) * 2 ^ lsb q := by
    rw [hk, zpow_add₀ two_ne_zero, zpow_natCast]; push_cast; ring
  rw [e1]
  refine mul_le_mul_of_nonneg_right ?_ (two_zpow_pos _).le
  have h2 : ((m * 2 ^ k : ℤ) : ℚ) ≤ q * 2 ^ (-lsb q) := by
    rw [zpow_neg, ← div_eq_mul_inv, le_div_iff₀ (two_zpow_pos _), ← e1]; exact hm
  have := roundEven_mono h2
  rw [roundEven_int] at this
  exact_mod_cast this

theorem rnd_le {q : ℚ} (h : 0 < q) {e : ℤ} (he : lsb q ≤ e) (m : ℤ) (hm : q ≤ m * (2:ℚ) ^ e) :
    rnd q ≤ m * (2:ℚ) ^ e := by
  rw [rnd, if_neg (not_le.2 h)]
  obtain ⟨k, hk⟩ : ∃ k : ℕ, e = lsb q + k := ⟨(e - lsb q).toNat, by omega⟩
  have e1 : m * (2:ℚ) ^ e = ((m * 2 ^ k : ℤ) : ℚ) * 2 ^ lsb q := by
    rw [hk, zpow_add₀ two_ne_zero, zpow_natCast]; push_cast; ring
  rw [e1]
  refine mul_le_mul_of_nonneg_right ?_ (two_zpow_pos _).le
  have h2 : q * 2 ^ (-lsb q) ≤ ((m * 2 ^ k : ℤ) : ℚ) := by
    rw [zpow_neg, ← div_eq_mul_inv, div_le_iff₀ (two_zpow_pos _), ← e1]; exact hm
  have := roundEven_mono h2
  rw [roundEven_int] at this
  exact_mod_cast this

theorem rnd_mono {p q : ℚ} (h : p ≤ q) : rnd p ≤ rnd q := by
  by_cases hp : p ≤ 0
  · rw [rnd_of_nonpos hp]; exact rnd_nonneg q
  · push Not at hp
    have hq := hp.trans_le h
    have hl := ilog2_mono hp h
    have hle : lsb p ≤ lsb q := by unfold lsb; omega
    rcases lt_or_eq_of_le hle with hlt | heq
    · -- `2^ilog2 q` separates
      have e1 : lsb q = ilog2 q - 52 := by unfold lsb at hlt ⊢; omega
      have hq2 := ilog2_spec hq
      have hp2 := ilog2_spec hp
      have hll : ilog2 p < ilog2 q := by unfold lsb at hlt; omega
      have hB : p ≤ ((1 : ℤ) : ℚ) * 2 ^ ilog2 q := by
        rw [Int.cast_one, one_mul]
        exact hp2.2.le.trans (zpow_le_zpow_right₀ one_le_two (by omega))
      have h1 := rnd_le hp (e := ilog2 q) (by omega) 1 hB
      have h2 := le_rnd hq (e := ilog2 q) (by omega) 1 (by rw [Int.cast_one, one_mul]; exact hq2.1)
      exact h1.trans h2
    · rw [rnd, rnd, if_neg (not_le.2 hp), if_neg (not_le.2 hq), heq]
      refine mul_le_mul_of_nonneg_right ?_ (two_zpow_pos _).le
      exact_mod_cast roundEven_mono (mul_le_mul_of_nonneg_right h (two_zpow_pos _).le)

/-- magnitudes of binary64 numbers (without the upper bound) -/
def Dyad (x : ℚ) : Prop := ∃ (m : ℕ) (e : ℤ), m < 2 ^ 53 ∧ -1074 ≤ e ∧ x = m * (2:ℚ) ^ e

theorem rnd_exact {x : ℚ} (h : Dyad x) : rnd x = x := by
  obtain ⟨m, e, hm, he, rfl⟩ := h
  rcases Nat.eq_zero_or_pos m with rfl | hpos
  · simp [rnd]
  · have hx : (0:ℚ) < m * 2 ^ e := mul_pos (by exact_mod_cast hpos) (two_zpow_pos _)
    have hl : lsb (m * (2:ℚ) ^ e) ≤ e := by
      have h1 := (ilog2_spec hx).1
      have h2 : (m:ℚ) * 2 ^ e < 2 ^ (53 + e) := by
        rw [zpow_add₀ two_ne_zero]
        refine mul_lt_mul_of_pos_right ?_ (two_zpow_pos _)
        exact_mod_cast hm
      have h3 := h1.trans_lt h2
      rw [zpow_lt_zpow_iff_right₀ one_lt_two] at h3
      unfold lsb; omega
    have h1 := rnd_le hx hl m (by norm_cast)
    have h2 := le_rnd hx hl m (by norm_cast)
    have e1 : (((m:ℕ):ℤ):ℚ) = (m:ℚ) := by norm_cast
    rw [e1] at h1 h2
    exact le_antisymm h1 h2

theorem rnd_dyad (q : ℚ) : Dyad (rnd q) := by
  by_cases h : q ≤ 0
  · rw [rnd_of_nonpos h]; exact ⟨0, 0, by norm_num, by norm_num, by simp⟩
  · push Not at h
    have hq := ilog2_spec h
    have hr : 0 ≤ roundEven (q * (2:ℚ) ^ (-lsb q)) := roundEven_nonneg (mul_pos h (two_zpow_pos _)).le
    have hub : roundEven (q * (2:ℚ) ^ (-lsb q)) ≤ 2 ^ 53 := by
      have h1 : q * (2:ℚ) ^ (-lsb q) ≤ (((2:ℤ) ^ 53 : ℤ) : ℚ) := by
        rw [zpow_neg, ← div_eq_mul_inv, div_le_iff₀ (two_zpow_pos _)]
        refine hq.2.le.trans ?_
        have e1 : (((2:ℤ) ^ 53 : ℤ) : ℚ) * 2 ^ lsb q = 2 ^ ((53 : ℤ) + lsb q) := by
          rw [zpow_add₀ two_ne_zero]; norm_num
        rw [e1]
        exact zpow_le_zpow_right₀ one_le_two (by unfold lsb; omega)
      have := roundEven_mono h1
      rwa [roundEven_int] at this
    have hge : -1074 ≤ lsb q := by unfold lsb; omega
    rw [rnd, if_neg (not_le.2 h)]
    obtain ⟨n, hn⟩ := Int.eq_ofNat_of_zero_le hr
    rw [hn]
    rw [hn] at hub
    rcases lt_or_eq_of_le hub with hlt | heq
    · exact ⟨n, lsb q, by zify; exact hlt, hge, by rw [Int.cast_natCast]⟩
    · refine ⟨2 ^ 52, lsb q + 1, by norm_num, by omega, ?_⟩
      have : n = 2 ^ 53 := by exact_mod_cast heq
      rw [this, zpow_add₀ two_ne_zero]
      push_cast
      ring

/-- the binary64 numbers -/
def Rep : F64 → Prop
  | .fin _ m => 0 ≤ m ∧ m < (2:ℚ) ^ (1024 : ℤ) ∧ Dyad m
  | _ => True

theorem round_rep (s : Bool) (q : ℚ) : Rep (round s q) := by
  rw [round_eq]
  split_ifs with h
  · trivial
  · exact ⟨rnd_nonneg q, not_le.1 h, rnd_dyad q⟩

theorem round_exact (s : Bool) {m : ℚ} (h : Rep (.fin s m)) : round s m = .fin s m := by
  rw [round_eq, rnd_exact h.2.2, if_neg (not_le.2 h.2.1)]

theorem ofRat_rep (q : ℚ) : Rep (ofRat q) := by
  unfold ofRat; split_ifs <;> exact round_rep _ _

theorem neg_rep {a : F64} (h : Rep a) : Rep (neg a) := by cases a <;> exact h
theorem abs_rep {a : F64} (h : Rep a) : Rep (F64.abs a) := by cases a <;> exact h

theorem fin_zero_rep (s : Bool) : Rep (.fin s 0) :=
  ⟨le_rfl, two_zpow_pos 1024, 0, 0, by norm_num, by norm_num, by simp⟩

theorem add_rep (a b : F64) : Rep (F64.add a b) := by
  unfold F64.add
  split <;> try trivial
  · split_ifs <;> trivial
  · dsimp only
    split_ifs
    · exact fin_zero_rep _
    · exact ofRat_rep _

theorem sub_rep (a b : F64) : Rep (F64.sub a b) := add_rep _ _

theorem mul_rep (a b : F64) : Rep (F64.mul a b) := by
  unfold F64.mul
  split <;> try trivial
  · split_ifs <;> trivial
  · split_ifs <;> trivial
  · exact round_rep _ _

theorem div_rep (a b : F64) : Rep (F64.div a b) := by
  unfold F64.div
  split
  · exact True.intro
  · exact True.intro
  · exact True.intro
  · exact True.intro
  · exact fin_zero_rep _
  · split_ifs
    · exact True.intro
    · exact True.intro
    · exact round_rep _ _

theorem sqrt_rep (a : F64) : Rep (F64.sqrt a) := by
  unfold F64.sqrt
  split
  · trivial
  · split_ifs <;> trivial
  · split_ifs
    · exact fin_zero_rep _
    · trivial
    · unfold sqrtMag
      split_ifs
      · exact fin_zero_rep _
      · exact round_rep _ _

/-- the value of a rounded rational -/
noncomputable def rkey (q : ℚ) : EReal := key (ofRat q)

theorem key_round_false (q : ℚ) : key (round false q) =
    if (2:ℚ) ^ (1024 : ℤ) ≤ rnd q then (⊤ : EReal) else (((rnd q : ℚ) : ℝ) : EReal) := by
  rw [round_eq]; split_ifs <;> simp [key, val]

theorem key_round_true (q : ℚ) : key (round true q) =
    if (2:ℚ) ^ (1024 : ℤ) ≤ rnd q then (⊥ : EReal) else (((-rnd q : ℚ) : ℝ) : EReal) := by
  rw [round_eq]; split_ifs <;> simp [key, val]

theorem key_round_mono {p q : ℚ} (h : p ≤ q) : key (round false p) ≤ key (round false q) := by
  have := rnd_mono h
  rw [key_round_false, key_round_false]
  split_ifs with h1 h2 h2
  · exact le_rfl
  · exact absurd (h1.trans this) h2
  · exact le_top
  · rw [EReal.coe_le_coe_iff]
    exact Rat.cast_le.2 this

theorem key_round_anti {p q : ℚ} (h : p ≤ q) : key (round true q) ≤ key (round true p) := by
  have := rnd_mono h
  rw [key_round_true, key_round_true]
  split_ifs with h1 h2 h2
  · exact le_rfl
  · exact bot_le
  · exact absurd (h2.trans this) h1
  · rw [EReal.coe_le_coe_iff]
    exact Rat.cast_le.2 (neg_le_neg this)

theorem key_round_nonneg (q : ℚ) : 0 ≤ key (round false q) := by
  have := key_round_mono (p := min q 0) (q := q) (min_le_left _ _)
  rw [key_round_false, rnd_of_nonpos (min_le_right _ _), if_neg (not_le.2 (two_zpow_pos 1024))] at this
  simpa using this

theorem key_round_nonpos (q : ℚ) : key (round true q) ≤ 0 := by
  have := key_round_anti (p := min q 0) (q := q) (min_le_left _ _)
  rw [key_round_true (min q 0), rnd_of_nonpos (min_le_right _ _), if_neg (not_le.2 (two_zpow_pos 1024))] at this
  simpa using this

theorem rkey_mono {p q : ℚ} (h : p ≤ q) : rkey p ≤ rkey q := by
  unfold rkey ofRat
  split_ifs with h1 h2 h2
  · exact key_round_anti (by linarith)
  · exact (key_round_nonpos _).trans (key_round_nonneg _)
  · exact absurd (h.trans_lt h2) h1
  · exact key_round_mono h

theorem rkey_zero : rkey 0 = 0 := by
  simp [rkey, ofRat, round_zero, key, val]

/-- rounding a representable value gives it back -/
theorem rkey_val {s : Bool} {m : ℚ} (h : Rep (.fin s m)) : rkey (val s m) = ((val s m : ℚ) : ℝ) := by
  have hm := h.1
  unfold rkey ofRat
  cases s with
  | false =>
    simp only [val, Bool.false_eq_true, if_false]
    rw [if_neg (not_lt.2 hm), round_exact false h]; simp [key, val]
  | true =>
    simp only [val, if_true]
    split_ifs with h1
    · rw [neg_neg, round_exact true h]; simp [key, val]
    · have : m = 0 := by linarith
      subst this; simp [round_zero, key, val]

theorem key_add (s t : Bool) (m n : ℚ) : key (F64.add (.fin s m) (.fin t n)) = rkey (val s m + val t n) := by
  simp only [F64.add]
  split_ifs with h
  · rw [h, rkey_zero]; simp [key, val]
  · rfl

theorem val_neg (t : Bool) (n : ℚ) : val (!t) n = -val t n := by cases t <;> simp [val]

theorem key_sub (s t : Bool) (m n : ℚ) : key (F64.sub (.fin s m) (.fin t n)) = rkey (val s m - val t n) := by
  simp only [F64.sub, F64.neg]
  rw [key_add, val_neg, sub_eq_add_neg]

theorem key_round_xor (s t : Bool) {m : ℚ} (hm : 0 ≤ m) : key (round (xor s t) m) = rkey (val (xor s t) m) := by
  unfold rkey ofRat
  cases h : xor s t with
  | false => simp only [val, Bool.false_eq_true, if_false]; rw [if_neg (not_lt.2 hm)]
  | true =>
    simp only [val, if_true]
    split_ifs with h1
    · rw [neg_neg]
    · have : m = 0 := by linarith
      subst this; simp [round_zero, key, val]

theorem key_mul {s t : Bool} {m n : ℚ} (hm : 0 ≤ m) (hn : 0 ≤ n) :
    key (F64.mul (.fin s m) (.fin t n)) = rkey (val s m * val t n) := by
  simp only [F64.mul]
  rw [key_round_xor s t (mul_nonneg hm hn)]
  congr 1
  cases s <;> cases t <;> simp [val]

theorem key_div {s t : Bool} {m n : ℚ} (hm : 0 ≤ m) (hn : 0 < n) :
    key (F64.div (.fin s m) (.fin t n)) = rkey (val s m / val t n) := by
  simp only [F64.div]
  rw [if_neg hn.ne', key_round_xor s t (div_nonneg hm hn.le)]
  congr 1
  cases s <;> cases t <;> simp [val, neg_div, div_neg]

end R3D.F64
