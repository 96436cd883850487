import Verif.Model.PointText
import Verif.Props.Xyz
/-!
C90: text of points and point clouds.
-/
namespace R3D
open Spec

variable {α : Type}

theorem pieces_iff (c : UInt8) (s : Bytes) (ws : List Bytes) : pieces c s = ws ↔ WordsOf (fun b => b == c) s ws := by
  constructor
  · intro h
    obtain ⟨ws', h'⟩ := wordsOf_exists (fun b => b == c) s
    have := words_of h'
    exact (h.symm.trans this) ▸ h'
  · exact words_of

/-! ### points -/

/-- **C90**, reading points: the accepted texts are exactly those with three words (maximal runs without blanks) that all are numbers; the
point has these coordinates in this order. All other texts give `ParseError`, never a panic. -/
theorem c90_parse_3d (T : FloatText α) (text : Bytes) :
    (∀ p : Point3D α, Point3D.parse T text = .ok p ↔ ∃ wx wy wz, WordsOf (fun b => b == 32) text [wx, wy, wz] ∧
      T.parse wx = some p.x ∧ T.parse wy = some p.y ∧ T.parse wz = some p.z) ∧
    (∀ e, Point3D.parse T text = .error e → e = .ParseError) := by
  have key : Point3D.parse T text = match pieces 32 text with
      | [wx, wy, wz] => match T.parse wx, T.parse wy, T.parse wz with
        | some x, some y, some z => .ok ⟨x, y, z⟩
        | _, _, _ => .error .ParseError
      | _ => .error .ParseError := by
    unfold Point3D.parse
    rcases h : pieces 32 text with _ | ⟨wx, _ | ⟨wy, _ | ⟨wz, _ | ⟨w, ws⟩⟩⟩⟩
    · rfl
    · rcases hx : T.parse wx <;> simp [nextFloat, bind, Except.bind, hx]
    · rcases hx : T.parse wx <;> rcases hy : T.parse wy <;> simp [nextFloat, bind, Except.bind, hx, hy]
    all_goals
      rcases hx : T.parse wx <;> rcases hy : T.parse wy <;> rcases hz : T.parse wz <;> simp [nextFloat, bind, Except.bind, hx, hy, hz]
  rw [key]
  constructor
  · intro p
    constructor
    · intro h
      split at h
      · rename_i wx wy wz hw
        split at h
        · rename_i x y z hx hy hz
          cases h
          exact ⟨wx, wy, wz, (pieces_iff _ _ _).1 hw, hx, hy, hz⟩
        · cases h
      · cases h
    · rintro ⟨wx, wy, wz, hw, hx, hy, hz⟩
      rw [(pieces_iff _ _ _).2 hw]
      simp only [hx, hy, hz]
  · intro e h
    split at h
    · split at h
      · cases h
      · cases h; rfl
    · cases h; rfl

/-- … and for two coordinates -/
theorem c90_parse_2d (T : FloatText α) (text : Bytes) :
    (∀ p : Point2D α, Point2D.parse T text = .ok p ↔ ∃ wx wy, WordsOf (fun b => b == 32) text [wx, wy] ∧
      T.parse wx = some p.x ∧ T.parse wy = some p.y) ∧
    (∀ e, Point2D.parse T text = .error e → e = .ParseError) := by
  have key : Point2D.parse T text = match pieces 32 text with
      | [wx, wy] => match T.parse wx, T.parse wy with
        | some x, some y => .ok ⟨x, y⟩
        | _, _ => .error .ParseError
      | _ => .error .ParseError := by
    unfold Point2D.parse
    rcases h : pieces 32 text with _ | ⟨wx, _ | ⟨wy, _ | ⟨w, ws⟩⟩⟩
    · rfl
    · rcases hx : T.parse wx <;> simp [nextFloat, bind, Except.bind, hx]
    all_goals
      rcases hx : T.parse wx <;> rcases hy : T.parse wy <;> simp [nextFloat, bind, Except.bind, hx, hy]
  rw [key]
  constructor
  · intro p
    constructor
    · intro h
      split at h
      · rename_i wx wy hw
        split at h
        · rename_i x y hx hy
          cases h
          exact ⟨wx, wy, (pieces_iff _ _ _).1 hw, hx, hy⟩
        · cases h
      · cases h
    · rintro ⟨wx, wy, hw, hx, hy⟩
      rw [(pieces_iff _ _ _).2 hw]
      simp only [hx, hy]
  · intro e h
    split at h
    · split at h
      · cases h
      · cases h; rfl
    · cases h; rfl

theorem fmt_no_blank {T : FloatText α} {ok : α → Prop} (hT : T.Lawful ok) {x : α} (hx : ok x) :
    T.fmt x ≠ [] ∧ (∀ b ∈ T.fmt x, (b == (32 : UInt8)) = false) ∧ (10 : UInt8) ∉ T.fmt x :=
  ⟨hT.fmt_ne x hx, (fmt_props hT hx (d := 32) (by decide)).2.1, (fmt_props hT hx (d := 32) (by decide)).2.2.2.2⟩

/-- **C90**, round trip: a point written with `to_str` is parsed as the same point -/
theorem c90_roundtrip_3d (T : FloatText α) (ok : α → Prop) (hT : T.Lawful ok) (p : Point3D α) (hp : ok p.x ∧ ok p.y ∧ ok p.z) :
    Point3D.parse T (p.toStr T) = .ok p := by
  obtain ⟨ox, oy, oz⟩ := hp
  obtain ⟨nx, wx, -⟩ := fmt_no_blank hT ox
  obtain ⟨ny, wy, -⟩ := fmt_no_blank hT oy
  obtain ⟨nz, wz, -⟩ := fmt_no_blank hT oz
  refine ((c90_parse_3d T _).1 p).2 ⟨_, _, _, ?_, hT.parse_fmt _ ox, hT.parse_fmt _ oy, hT.parse_fmt _ oz⟩
  have := wordsOf_next (p := fun b => b == 32) (sep := b!" ") nx wx (by decide) (by decide)
    (wordsOf_next (p := fun b => b == 32) (sep := b!" ") ny wy (by decide) (by decide) (wordsOf_last (p := fun b => b == 32) nz wz))
  simpa [Point3D.toStr, List.append_assoc] using this

/-- … and for two coordinates -/
theorem c90_roundtrip_2d (T : FloatText α) (ok : α → Prop) (hT : T.Lawful ok) (p : Point2D α) (hp : ok p.x ∧ ok p.y) :
    Point2D.parse T (p.toStr T) = .ok p := by
  obtain ⟨ox, oy⟩ := hp
  obtain ⟨nx, wx, -⟩ := fmt_no_blank hT ox
  obtain ⟨ny, wy, -⟩ := fmt_no_blank hT oy
  refine ((c90_parse_2d T _).1 p).2 ⟨_, _, ?_, hT.parse_fmt _ ox, hT.parse_fmt _ oy⟩
  have := wordsOf_next (p := fun b => b == 32) (sep := b!" ") nx wx (by decide) (by decide) (wordsOf_last (p := fun b => b == 32) ny wy)
  simpa [Point2D.toStr, List.append_assoc] using this

/-! ### clouds -/

theorem cloudParseLoop_ok {P : Type} (parse : Bytes → Res P) (ls : List Bytes) (pc r : List P) :
    cloudParseLoop parse ls pc = .ok r ↔ ∃ ps, r = pc ++ ps ∧ List.Forall₂ (fun l p => parse l = .ok p) ls ps := by
  induction ls generalizing pc with
  | nil => 
    simp only [cloudParseLoop, Except.ok.injEq, List.forall₂_nil_left_iff]
    constructor
    · rintro rfl; exact ⟨[], by simp, rfl⟩
    · rintro ⟨_, h, rfl⟩; simpa using h.symm
  | cons l ls ih =>
    simp only [cloudParseLoop]
    cases h : parse l with
    | error e =>
      simp only [reduceCtorEq, false_iff]
      rintro ⟨ps, -, hps⟩
      cases hps with | cons h1 _ => rw [h] at h1; cases h1
    | ok p =>
      simp only [ih]
      constructor
      · rintro ⟨ps, rfl, hps⟩
        exact ⟨p :: ps, by simp, .cons h hps⟩
      · rintro ⟨ps, rfl, hps⟩
        cases hps with
        | cons h1 h2 =>
          rw [h] at h1; cases h1
          exact ⟨_, by simp, h2⟩

theorem cloudParseLoop_error {P : Type} (parse : Bytes → Res P) (ls : List Bytes) (pc : List P) (e : ErrorKind)
    (h : cloudParseLoop parse ls pc = .error e) : ∃ l, parse l = .error e := by
  induction ls generalizing pc with
  | nil => cases h
  | cons l ls ih =>
    simp only [cloudParseLoop] at h
    cases hl : parse l with
    | error e' => rw [hl] at h; cases h; exact ⟨l, hl⟩
    | ok p => rw [hl] at h; exact ih _ h

/-- **C90**, reading clouds: the accepted texts are exactly those with at least one line that is not empty, and each such line a point; the
cloud has these points in this order. (`parse` is that of the points, `c90_parse_3d`, `c90_parse_2d`.) All errors are those of a line, or
`ParseError` for no line. -/
theorem c90_parse_cloud {P : Type} (parse : Bytes → Res P) (text : Bytes) :
    (∀ ps, cloudParse parse text = .ok ps ↔ ps ≠ [] ∧ ∃ ls, WordsOf (fun b => b == 10) text ls ∧
      List.Forall₂ (fun l p => parse l = .ok p) ls ps) ∧
    (∀ e, cloudParse parse text = .error e → e = .ParseError ∨ ∃ l, parse l = .error e) := by
  unfold cloudParse
  constructor
  · intro ps
    cases h : cloudParseLoop parse (pieces 10 text) [] with
    | error e =>
      simp only [bind, Except.bind, reduceCtorEq, false_iff]
      rintro ⟨-, ls, hls, hps⟩
      rw [(pieces_iff _ _ _).2 hls, (cloudParseLoop_ok parse ls [] ps).2 ⟨ps, rfl, hps⟩] at h
      cases h
    | ok r =>
      obtain ⟨ps', e1, h1⟩ := (cloudParseLoop_ok parse _ _ _).1 h
      rw [List.nil_append] at e1
      subst e1
      simp only [bind, Except.bind]
      constructor
      · intro h2
        split_ifs at h2 with h3
        cases h2
        exact ⟨fun h4 => h3 (by rw [h4]; rfl), _, (pieces_iff _ _ _).1 rfl, h1⟩
      · rintro ⟨hne, ls, hls, hps⟩
        rw [(pieces_iff _ _ _).2 hls, (cloudParseLoop_ok parse ls [] ps).2 ⟨ps, rfl, hps⟩] at h
        cases h
        rw [if_neg (fun h4 => hne (List.length_eq_zero_iff.1 h4))]
  · intro e h
    cases h' : cloudParseLoop parse (pieces 10 text) [] with
    | error e' =>
      rw [h'] at h
      cases h
      exact .inr (cloudParseLoop_error _ _ _ _ h')
    | ok r =>
      rw [h'] at h
      simp only [bind, Except.bind] at h
      split_ifs at h
      cases h
      exact .inl rfl

theorem cloudToStr_eq {P : Type} (toStr : P → Bytes) (ps : List P) : cloudToStr toStr ps = ps.flatMap fun p => toStr p ++ b!"\n" := by
  have : ∀ (ps : List P) (acc : Bytes), ps.foldl (fun result p => result ++ toStr p ++ b!"\n") acc =
      acc ++ ps.flatMap fun p => toStr p ++ b!"\n" := by
    intro ps
    induction ps with
    | nil => simp
    | cons p ps ih => intro acc; rw [List.foldl_cons, ih]; simp
  exact (this ps []).trans (by simp)

theorem cloud_lines {P : Type} (toStr : P → Bytes) (ps : List P) (h : ∀ p ∈ ps, toStr p ≠ [] ∧ (10 : UInt8) ∉ toStr p) :
    WordsOf (fun b => b == 10) (cloudToStr toStr ps) (ps.map toStr) := by
  rw [cloudToStr_eq]
  suffices h' : ∀ pre : Bytes, (∀ b ∈ pre, (b == (10 : UInt8)) = true) →
      WordsOf (fun b => b == 10) (pre ++ ps.flatMap fun p => toStr p ++ b!"\n") (ps.map toStr) from h' [] (by simp)
  induction ps with
  | nil => intro pre hpre; simpa using WordsOf.nil hpre
  | cons p ps ih =>
    intro pre hpre
    obtain ⟨h1, h2⟩ := h p (by simp)
    have h3 := ih (fun q hq => h q (by simp [hq])) b!"\n" (by decide)
    have := WordsOf.cons hpre h1 (fun b hb => by
      rw [beq_eq_false_iff_ne]; rintro rfl; exact h2 hb) (by intro b hb; simp at hb; subst hb; rfl) h3
    simpa [List.append_assoc] using this

theorem cloud_roundtrip {P : Type} (toStr : P → Bytes) (parse : Bytes → Res P) (ps : List P) (hne : ps ≠ [])
    (h : ∀ p ∈ ps, parse (toStr p) = .ok p ∧ toStr p ≠ [] ∧ (10 : UInt8) ∉ toStr p) :
    cloudParse parse (cloudToStr toStr ps) = .ok ps := by
  refine ((c90_parse_cloud parse _).1 ps).2 ⟨hne, _, cloud_lines toStr ps (fun p hp => (h p hp).2), ?_⟩
  clear hne
  induction ps with
  | nil => exact .nil
  | cons p ps ih => exact .cons (h p (by simp)).1 (ih fun q hq => h q (by simp [hq]))

/-- **C90**, round trip (partial: not for empty clouds, see `c90_violated`): a cloud with points, written with `to_str`, is parsed as the
same cloud -/
theorem c90_cloud_3d_partial (T : FloatText α) (ok : α → Prop) (hT : T.Lawful ok) (ps : List (Point3D α)) (hne : ps ≠ [])
    (hp : ∀ p ∈ ps, ok p.x ∧ ok p.y ∧ ok p.z) :
    cloudParse (Point3D.parse T) (cloudToStr (Point3D.toStr T) ps) = .ok ps := by
  refine cloud_roundtrip _ _ ps hne fun p h => ⟨c90_roundtrip_3d T ok hT p (hp p h), ?_⟩
  obtain ⟨ox, oy, oz⟩ := hp p h
  obtain ⟨nx, -, wx⟩ := fmt_no_blank hT ox
  obtain ⟨ny, -, wy⟩ := fmt_no_blank hT oy
  obtain ⟨nz, -, wz⟩ := fmt_no_blank hT oz
  simp [Point3D.toStr, nx, wx, wy, wz]

/-- … and in the plane -/
theorem c90_cloud_2d_partial (T : FloatText α) (ok : α → Prop) (hT : T.Lawful ok) (ps : List (Point2D α)) (hne : ps ≠ [])
    (hp : ∀ p ∈ ps, ok p.x ∧ ok p.y) :
    cloudParse (Point2D.parse T) (cloudToStr (Point2D.toStr T) ps) = .ok ps := by
  refine cloud_roundtrip _ _ ps hne fun p h => ⟨c90_roundtrip_2d T ok hT p (hp p h), ?_⟩
  obtain ⟨ox, oy⟩ := hp p h
  obtain ⟨nx, -, wx⟩ := fmt_no_blank hT ox
  obtain ⟨ny, -, wy⟩ := fmt_no_blank hT oy
  simp [Point2D.toStr, nx, wx, wy]

/-- **C90** violated: the text of the empty cloud can not be parsed -/
theorem c90_violated (T : FloatText α) :
    cloudParse (Point3D.parse T) (cloudToStr (Point3D.toStr T) []) = .error .ParseError ∧
    cloudParse (Point2D.parse T) (cloudToStr (Point2D.toStr T) []) = .error .ParseError := ⟨rfl, rfl⟩

/-- Line breaks of the form `\r\n` and tabs are not understood: if no text with white space is a number, as for `f64::from_str`, all
texts with such a byte are refused. -/
theorem c90_other_white_space (T : FloatText α) (hT : ∀ w, ((13 : UInt8) ∈ w ∨ (9 : UInt8) ∈ w) → T.parse w = none) (text : Bytes)
    (h : (13 : UInt8) ∈ text ∨ (9 : UInt8) ∈ text) : Point3D.parse T text = .error .ParseError := by
  cases hp : Point3D.parse T text with
  | error e => rw [(c90_parse_3d T text).2 e hp]
  | ok p =>
    obtain ⟨wx, wy, wz, hw, hx, hy, hz⟩ := ((c90_parse_3d T text).1 p).1 hp
    have hmem : ∀ {s : Bytes} {ws : List Bytes}, WordsOf (fun b => b == 32) s ws → ∀ b ∈ s, b ≠ 32 → ∃ w ∈ ws, b ∈ w := by
      intro s ws hs
      induction hs with
      | nil h => intro b hb hb'; exact absurd (by simpa using h b hb) hb'
      | cons h1 _ _ _ _ ih =>
        intro b hb hb'
        simp only [List.mem_append] at hb
        rcases hb with (hb | hb) | hb
        · exact absurd (by simpa using h1 b hb) hb'
        · exact ⟨_, by simp, hb⟩
        · obtain ⟨w, hw, hbw⟩ := ih b hb hb'
          exact ⟨w, by simp [hw], hbw⟩
    have : ∃ w ∈ [wx, wy, wz], (13 : UInt8) ∈ w ∨ (9 : UInt8) ∈ w := by
      rcases h with h | h
      · obtain ⟨w, h1, h2⟩ := hmem hw _ h (by decide); exact ⟨w, h1, .inl h2⟩
      · obtain ⟨w, h1, h2⟩ := hmem hw _ h (by decide); exact ⟨w, h1, .inr h2⟩
    obtain ⟨w, h1, h2⟩ := this
    have h3 := hT w h2
    simp only [List.mem_cons, List.not_mem_nil, or_false] at h1
    rcases h1 with rfl | rfl | rfl
    · rw [h3] at hx; cases hx
    · rw [h3] at hy; cases hy
    · rw [h3] at hz; cases hz

/-! ### examples -/

/-- numbers below 10 as a text, for the examples -/
def digitText : FloatText Nat where
  fmt n := [UInt8.ofNat (48 + n)]
  parse w := match w with
    | [b] => if 48 ≤ b.toNat ∧ b.toNat ≤ 57 then some (b.toNat - 48) else none
    | _ => none

example : digitText.Lawful (fun n => n < 10) where
  parse_fmt := by decide
  fmt_ne := by intro x _; simp [digitText]
  fmt_bytes := by decide

example : Point3D.parse digitText b!" 1  2 3" = .ok ⟨1, 2, 3⟩ ∧ Point3D.parse digitText b!"1 2" = .error .ParseError ∧
    Point3D.parse digitText b!"1 2 3 4" = .error .ParseError ∧
    cloudParse (Point2D.parse digitText) b!"1 2\n\n3 4" = .ok [⟨1, 2⟩, ⟨3, 4⟩] := by decide

example : ∀ w : Bytes, ((13 : UInt8) ∈ w ∨ (9 : UInt8) ∈ w) → digitText.parse w = none := by
  rintro (_ | ⟨b, _ | ⟨c, w⟩⟩) h
  · simp at h
  · simp only [List.mem_singleton] at h
    rcases h with rfl | rfl <;> rfl
  · rfl

end R3D
