import Mathlib.Tactic.IntervalCases
import Verif.Props.Ply
/-!
# C111: which headers of .ply files are accepted
-/
namespace R3D
open Spec

/-! ### specification -/

/-- lines read one after the other: up to a line break or, at the end of the file, up to the last byte, white space at the end cut off -/
inductive Spec.Fetched : Bytes → List Bytes → Bytes → Prop
  | nil {s : Bytes} : Fetched s [] s
  | cons {c l s r : Bytes} {b : UInt8} {ls : List Bytes} : (10 : UInt8) ∉ c → (b = 10 ∨ b ≠ 10 ∧ s = []) → Trimmed c l → Fetched s ls r →
      Fetched (c ++ b :: s) (l :: ls) r

/-- what a line of the declaration of faces says -/
inductive Spec.FaceItem where
  /-- a property that is no list, with its size -/
  | other (n : Nat)
  /-- the list of the vertices -/
  | list (tCount tIndex : FaceType)
  /-- any other list -/
  | ignored

def Spec.FaceItem.Line (l : Bytes) : FaceItem → Prop
  | .other n => FaceOtherLine l n
  | .list tc ti => FaceListLine l tc ti
  | .ignored => (∃ r, l = b!"property list" ++ r) ∧ ¬∃ a b, l = a ++ b!"vertex_indices" ++ b ∨ l = a ++ b!"vertex_index" ++ b

/-- the sizes of the properties that are no lists -/
def Spec.otherSizes (items : List FaceItem) : List Nat := items.filterMap fun
  | .other n => some n
  | _ => none

/-- What is known of faces: nothing without a list of vertices. With several ones the last one counts, other properties are in
front of or behind the first one. -/
def Spec.FaceKnown (n : Nat) (items : List FaceItem) (f : Option PlyFaceData) : Prop :=
  (f = none ∧ ∀ tc ti, FaceItem.list tc ti ∉ items) ∨
  ∃ pre tc ti post tc' ti', items = pre ++ .list tc ti :: post ∧ (∀ tc ti, FaceItem.list tc ti ∉ pre) ∧
    (((∀ tc ti, FaceItem.list tc ti ∉ post) ∧ tc' = tc ∧ ti' = ti) ∨
      ∃ p q, post = p ++ .list tc' ti' :: q ∧ ∀ tc ti, FaceItem.list tc ti ∉ q) ∧
    f = some ⟨n, tc', ti', total (otherSizes pre), total (otherSizes post)⟩

/-- the declaration of faces -/
def Spec.FacePart (ls : List Bytes) (f : Option PlyFaceData) : Prop :=
  ∃ l fs n items, ls = l :: fs ∧ ElementLine b!"face" l n ∧ List.Forall₂ FaceItem.Line fs items ∧ FaceKnown n items f

/-- the declaration of vertices -/
def Spec.VertexPart (ls : List Bytes) (v : PlyVertexData) : Prop :=
  ∃ l vs d, ls = l :: vs ∧ ElementLine b!"vertex" l v.count ∧ d.Distinct ∧ VertexDecl.Lines d vs ∧
    (d.a1, d.a2, d.a3, v.order) ∈ orders ∧ v.first = d.typeOf .X ∧ v.snd = d.typeOf .Y ∧ v.third = d.typeOf .Z ∧
    v.before = total d.before ∧ v.betweenFirstSnd = total d.mid1 ∧ v.betweenSndThird = total d.mid2 ∧ v.after = total d.after

/-- the lines of an accepted header -/
def Spec.AcceptedHeader (ls : List Bytes) (h : PlyHeader) : Prop :=
  ∃ pre v f, ls = pre ++ [b!"end_header"] ∧ VertexPart v h.vertex ∧ (f = [] ∧ h.face = none ∨ FacePart f h.face) ∧
    (pre.filter (fun l => !isComment l) = b!"ply" :: formatLine h.format :: (v ++ f) ∨
     pre.filter (fun l => !isComment l) = b!"ply" :: formatLine h.format :: (f ++ v))

/-! ### words -/

theorem tryFrom_size_inv {w : Bytes} {t : PlyType} (h : PlyType.tryFrom w = .ok t) : (w, t.sizeBytes) ∈ plyTypes := by
  unfold PlyType.tryFrom at h
  split_ifs at h with h1 h2 h3 h4 h5 h6 h7 h8 <;>
    first
    | (injection h with h; subst h; first | (rcases h1 with rfl | rfl <;> decide) | (rcases h2 with rfl | rfl <;> decide) | (rcases h3 with rfl | rfl <;> decide) | (rcases h4 with rfl | rfl <;> decide) | (rcases h5 with rfl | rfl <;> decide) | (rcases h6 with rfl | rfl <;> decide) | (rcases h7 with rfl | rfl <;> decide) | (rcases h8 with rfl | rfl <;> decide))

theorem tryFrom_coord_inv {w : Bytes} {p : PlyType} {t : VertexType} (h : PlyType.tryFrom w = .ok p) (h' : VertexType.tryFrom p = .ok t) :
    (w, t) ∈ coordTypes := by
  unfold PlyType.tryFrom at h
  split_ifs at h with h1 h2 h3 h4 h5 h6 h7 h8 <;> (injection h with h; subst h) <;>
    first
    | (cases h'; done)
    | (injection h' with h'; subst h'; first | (rcases h7 with rfl | rfl <;> decide) | (rcases h8 with rfl | rfl <;> decide))

theorem tryFrom_index_inv {w : Bytes} {p : PlyType} {t : FaceType} (h : PlyType.tryFrom w = .ok p) (h' : FaceType.tryFrom p = .ok t) :
    (w, t) ∈ indexTypes := by
  unfold PlyType.tryFrom at h
  split_ifs at h with h1 h2 h3 h4 h5 h6 h7 h8 <;> (injection h with h; subst h) <;>
    first
    | (cases h'; done)
    | (injection h' with h'; subst h'; first | (rcases h1 with rfl | rfl <;> decide) | (rcases h2 with rfl | rfl <;> decide) | (rcases h3 with rfl | rfl <;> decide) | (rcases h4 with rfl | rfl <;> decide) | (rcases h5 with rfl | rfl <;> decide) | (rcases h6 with rfl | rfl <;> decide))

theorem typeWord_inv {l : Bytes} {n : Nat} {t : PlyType} (h : plyTypeWord (toWords l) n = .ok t) :
    ∃ w, (toWords l)[n]? = some w ∧ PlyType.tryFrom w = .ok t := by
  unfold plyTypeWord at h
  cases hw : (toWords l)[n]? with
  | none => rw [hw] at h; cases h
  | some w => rw [hw] at h; exact ⟨w, rfl, h⟩

theorem faceTypeWord_inv {l : Bytes} {n : Nat} {t : FaceType} (h : plyFaceTypeWord (toWords l) n = .ok t) :
    ∃ w, (toWords l)[n]? = some w ∧ (w, t) ∈ indexTypes := by
  unfold plyFaceTypeWord at h
  cases hp : plyTypeWord (toWords l) n with
  | error e => rw [hp] at h; cases h
  | ok p =>
    rw [hp] at h
    obtain ⟨w, h1, h2⟩ := typeWord_inv hp
    exact ⟨w, h1, tryFrom_index_inv h2 h⟩

theorem split_two {l : List Bytes} {a : Bytes} (h : l[1]? = some a) : ∃ w ws, l = w :: a :: ws := by
  match l with
  | [] => simp at h
  | [_] => simp at h
  | x :: y :: t => simp at h; exact ⟨x, t, by rw [h]⟩

theorem split_three {l : List Bytes} {a b : Bytes} (h : l[1]? = some a) (h' : l[2]? = some b) : ∃ w ws, l = w :: a :: b :: ws := by
  match l with
  | [] => simp at h
  | [_] => simp at h
  | [_, _] => simp at h'
  | x :: y :: z :: t => simp at h h'; exact ⟨x, t, by rw [h, h']⟩

theorem split_four {l : List Bytes} {a b : Bytes} (h : l[2]? = some a) (h' : l[3]? = some b) : ∃ v w ws, l = v :: w :: a :: b :: ws := by
  match l with
  | [] => simp at h
  | [_] => simp at h
  | [_, _] => simp at h
  | [_, _, _] => simp at h'
  | x :: y :: z :: u :: t => simp at h h'; exact ⟨x, y, t, by rw [h, h']⟩

/-! ### single lines -/

theorem vertexProperty_inv {l : Bytes} {s s' : PlyHeaderState} (hp : ∃ r, l = b!"property" ++ r)
    (h : plyVertexProperty l s = some (.ok s')) :
    (∃ n, OtherLine l n ∧ s' = addOther s n 1) ∨ ∃ a t, CoordLine l a t ∧ (setType s t a).addAxis a = some s' := by
  have h0 := h
  unfold plyVertexProperty at h
  dsimp only at h
  cases h1 : plyTypeWord (toWords l) 1 with
  | error e => rw [h1] at h; simp at h
  | ok t =>
    obtain ⟨ty, w1, w2⟩ := typeWord_inv h1
    rw [h1] at h
    dsimp only at h
    cases h2 : (toWords l)[2]? with
    | none => rw [h2] at h; simp at h
    | some id =>
      rw [h2] at h
      dsimp only at h
      obtain ⟨w, ws, hw⟩ := split_three w1 h2
      have coord : ∀ a vt, id = axisName a → VertexType.tryFrom t = .ok vt → CoordLine l a vt := by
        rintro a vt rfl hv
        exact ⟨ty, ⟨hp, w, ws, toWords_iff.1 hw⟩, tryFrom_coord_inv w2 hv⟩
      have done : ∀ a, id = axisName a → (∃ vt, VertexType.tryFrom t = .ok vt) →
          (∃ n, OtherLine l n ∧ s' = addOther s n 1) ∨ ∃ a t, CoordLine l a t ∧ (setType s t a).addAxis a = some s' := by
        rintro a ha ⟨vt, hv⟩
        have c := coord a vt ha hv
        rw [vertexProperty_coord c] at h0
        refine .inr ⟨a, vt, c, ?_⟩
        cases hh : (setType s vt a).addAxis a with
        | none => rw [hh] at h0; simp at h0
        | some q => rw [hh] at h0; simp at h0; rw [h0]
      by_cases hx : id = b!"x"
      · refine done .X hx ?_
        rw [if_pos hx] at h
        cases hv : VertexType.tryFrom t with
        | error e => rw [hv] at h; simp at h
        | ok vt => exact ⟨vt, rfl⟩
      by_cases hy : id = b!"y"
      · refine done .Y hy ?_
        rw [if_neg hx, if_pos hy] at h
        cases hv : VertexType.tryFrom t with
        | error e => rw [hv] at h; simp at h
        | ok vt => exact ⟨vt, rfl⟩
      by_cases hz : id = b!"z"
      · refine done .Z hz ?_
        rw [if_neg hx, if_neg hy, if_pos hz] at h
        cases hv : VertexType.tryFrom t with
        | error e => rw [hv] at h; simp at h
        | ok vt => exact ⟨vt, rfl⟩
      have o : OtherLine l t.sizeBytes := ⟨ty, id, ⟨hp, w, ws, toWords_iff.1 hw⟩, tryFrom_size_inv w2, by
        intro a; cases a
        · exact hx
        · exact hy
        · exact hz⟩
      rw [vertexProperty_other o] at h0
      simp at h0
      exact .inl ⟨_, o, h0.symm⟩

/-- the state after a line of the declaration of faces -/
def faceStep (s : PlyHeaderState) : FaceItem → PlyHeaderState
  | .other n => addFaceOther s n 1
  | .list tc ti => { s with faceCountType := some tc, faceIndexType := some ti }
  | .ignored => s

theorem containsBytes_inv {l b : Bytes} (h : containsBytes l b = some true) (hb : b ≠ []) : ∃ a c, l = a ++ b ++ c := by
  obtain ⟨r, h1, h2⟩ := (c72_contains l b).2 hb
  rw [h1] at h
  obtain ⟨a, c, e⟩ := h2.1 (by simpa using h)
  exact ⟨a, c, e⟩

theorem faceProperty_inv {l : Bytes} {s s' : PlyHeaderState} (hp : ∃ r, l = b!"property" ++ r) (h : plyFaceProperty l s = .ok s') :
    ∃ i : FaceItem, i.Line l ∧ s' = faceStep s i := by
  have h0 := h
  unfold plyFaceProperty at h
  by_cases hl : startsWith l b!"property list" = true
  · rw [if_pos hl] at h
    by_cases hc : containsBytes l b!"vertex_indices" = some true ∨ containsBytes l b!"vertex_index" = some true
    · rw [if_pos hc] at h
      cases h1 : plyFaceTypeWord (toWords l) 2 with
      | error e => rw [h1] at h; simp at h
      | ok tc =>
        rw [h1] at h
        dsimp only at h
        cases h2 : plyFaceTypeWord (toWords l) 3 with
        | error e => rw [h2] at h; simp at h
        | ok ti =>
          obtain ⟨wc, c1, c2⟩ := faceTypeWord_inv h1
          obtain ⟨wi, i1, i2⟩ := faceTypeWord_inv h2
          obtain ⟨v, w, ws, hw⟩ := split_four c1 i1
          have hL : FaceListLine l tc ti := by
            refine ⟨startsWith_iff.1 hl, ?_, v, w, wc, wi, ws, toWords_iff.1 hw, c2, i2⟩
            rcases hc with hc | hc
            · obtain ⟨a, b, e⟩ := containsBytes_inv hc (by decide)
              exact ⟨a, b, .inl e⟩
            · obtain ⟨a, b, e⟩ := containsBytes_inv hc (by decide)
              exact ⟨a, b, .inr e⟩
          rw [faceProperty_list hL] at h0
          injection h0 with h0
          exact ⟨.list tc ti, hL, h0.symm⟩
    · rw [if_neg hc] at h
      injection h with h
      refine ⟨.ignored, ⟨startsWith_iff.1 hl, ?_⟩, h.symm⟩
      rintro ⟨a, b, e | e⟩
      · exact hc (.inl (by rw [e]; exact contains_of _ _ _ (by decide)))
      · exact hc (.inr (by rw [e]; exact contains_of _ _ _ (by decide)))
  · rw [if_neg hl] at h
    cases h1 : plyTypeWord (toWords l) 1 with
    | error e => rw [h1] at h; simp at h
    | ok t =>
      obtain ⟨ty, w1, w2⟩ := typeWord_inv h1
      obtain ⟨w, ws, hw⟩ := split_two w1
      have o : FaceOtherLine l t.sizeBytes := ⟨hp, fun h => hl (startsWith_iff.2 h), w, ty, ws, toWords_iff.1 hw, tryFrom_size_inv w2⟩
      rw [faceProperty_other o] at h0
      injection h0 with h0
      exact ⟨.other _, o, h0.symm⟩

theorem element_inv {kind l : Bytes} {n : Nat} (h : startsWith l (b!"element " ++ kind) = true) (hn : nthNum parseNat (toWords l) 2 = some n) :
    ElementLine kind l n := by
  refine ⟨by obtain ⟨r, e⟩ := startsWith_iff.1 h; exact ⟨r, e⟩, ?_⟩
  unfold nthNum at hn
  cases hw : (toWords l)[2]? with
  | none => rw [hw] at hn; simp at hn
  | some w =>
    rw [hw] at hn
    match hl : toWords l with
    | [] => rw [hl] at hw; simp at hw
    | [_] => rw [hl] at hw; simp at hw
    | [_, _] => rw [hl] at hw; simp at hw
    | x :: y :: z :: t =>
      rw [hl] at hw
      simp at hw
      subst hw
      exact ⟨x, y, z, t, toWords_iff.1 hl, hn⟩

/-- a line after which the header goes on, when the format is known -/
theorem line_next {l : Bytes} {s s' : PlyHeaderState} (hs : Ready s) (hc : isComment l = false)
    (h : plyHeaderLine l s = some (.ok (.next s'))) :
    (s.nVertices = none ∧ ∃ n, ElementLine b!"vertex" l n ∧ s' = { s with readState := .Vertex, nVertices := some n }) ∨
    (s.nFaces = none ∧ ∃ n, ElementLine b!"face" l n ∧ s' = { s with readState := .Face, nFaces := some n }) ∨
    ((∃ r, l = b!"property" ++ r) ∧
      ((s.readState = .Vertex ∧ plyVertexProperty l s = some (.ok s')) ∨ (s.readState = .Face ∧ plyFaceProperty l s = .ok s'))) := by
  obtain ⟨h1, h2⟩ := hs
  have h2' : ¬ s.format.isNone = true := by simpa [Option.isSome_iff_ne_none] using h2
  simp only [isComment, Bool.or_eq_false_iff] at hc
  unfold plyHeaderLine at h
  rw [if_neg (by rw [show startsWith l b!"comment" = _ from hc.1]; decide), if_neg (by rw [show startsWith l b!"obj_info" = _ from hc.2]; decide),
    if_neg (by simp [h1]), if_neg h2'] at h
  by_cases hv : s.nVertices.isNone ∧ startsWith l b!"element vertex" = true
  · rw [if_pos hv] at h
    cases hn : nthNum parseNat (toWords l) 2 with
    | none => rw [hn] at h; simp at h
    | some n =>
      rw [hn] at h
      simp at h
      exact .inl ⟨by simpa using hv.1, n, element_inv hv.2 hn, h.symm⟩
  rw [if_neg hv] at h
  by_cases hf : s.nFaces.isNone ∧ startsWith l b!"element face" = true
  · rw [if_pos hf] at h
    cases hn : nthNum parseNat (toWords l) 2 with
    | none => rw [hn] at h; simp at h
    | some n =>
      rw [hn] at h
      simp at h
      exact .inr (.inl ⟨by simpa using hf.1, n, element_inv hf.2 hn, h.symm⟩)
  rw [if_neg hf] at h
  unfold plyHeaderRest at h
  by_cases hp : startsWith l b!"property" = true
  · rw [if_pos hp] at h
    refine .inr (.inr ⟨startsWith_iff.1 hp, ?_⟩)
    cases hr : s.readState with
    | Meta => rw [hr] at h; simp at h
    | Vertex =>
      rw [hr] at h
      refine .inl ⟨rfl, ?_⟩
      cases hq : plyVertexProperty l s with
      | none => rw [hq] at h; simp at h
      | some q =>
        rw [hq] at h
        cases q with
        | error e => simp [Except.map] at h
        | ok q => simp [Except.map] at h; rw [h]
    | Face =>
      rw [hr] at h
      refine .inr ⟨rfl, ?_⟩
      cases hq : plyFaceProperty l s with
      | error e => rw [hq] at h; simp [Except.map] at h
      | ok q => rw [hq] at h; simp [Except.map] at h; rw [h]
  rw [if_neg hp] at h
  split_ifs at h with he
  · cases hq : plyEndHeader s with
    | error e => rw [hq] at h; simp [Except.map] at h
    | ok q => rw [hq] at h; simp [Except.map] at h
  · simp at h

/-- the line that ends the header -/
theorem line_done {l : Bytes} {s : PlyHeaderState} {hdr : PlyHeader} (h : plyHeaderLine l s = some (.ok (.done hdr))) :
    l = b!"end_header" ∧ s.plyFound = true ∧ plyEndHeader s = .ok hdr := by
  unfold plyHeaderLine at h
  split_ifs at h with h1 h2 h3 h4 h5 h6 h7 <;> try simp at h
  · cases hn : plyFormatLine l with
    | error e => rw [hn] at h; simp at h
    | ok q => rw [hn] at h; simp at h
  · cases hn : nthNum parseNat (toWords l) 2 with
    | none => rw [hn] at h; simp at h
    | some n => rw [hn] at h; simp at h
  · cases hn : nthNum parseNat (toWords l) 2 with
    | none => rw [hn] at h; simp at h
    | some n => rw [hn] at h; simp at h
  · unfold plyHeaderRest at h
    split_ifs at h with g1 g2
    · cases hr : s.readState with
      | Meta => rw [hr] at h; simp at h
      | Vertex =>
        rw [hr] at h
        cases hq : plyVertexProperty l s with
        | none => rw [hq] at h; simp at h
        | some q => rw [hq] at h; cases q <;> simp [Except.map] at h
      | Face =>
        rw [hr] at h
        cases hq : plyFaceProperty l s with
        | error e => rw [hq] at h; simp [Except.map] at h
        | ok q => rw [hq] at h; simp [Except.map] at h
    · refine ⟨g2.1, g2.2, ?_⟩
      cases hq : plyEndHeader s with
      | error e => rw [hq] at h; simp [Except.map] at h
      | ok q => rw [hq] at h; simp [Except.map] at h; rw [h]
    · simp at h

/-! ### several lines -/

/-- what a line of the declaration of vertices says -/
inductive VertexItem where
  | other (n : Nat)
  | coord (a : PlyAxis) (t : VertexType)

def VertexItem.Line (l : Bytes) : VertexItem → Prop
  | .other n => OtherLine l n
  | .coord a t => CoordLine l a t

def vertexStep (s : PlyHeaderState) : VertexItem → Option PlyHeaderState
  | .other n => some (addOther s n 1)
  | .coord a t => (setType s t a).addAxis a

/-- what no line of a declaration of vertices touches -/
def Frame (s s' : PlyHeaderState) : Prop :=
  s'.plyFound = s.plyFound ∧ s'.readState = s.readState ∧ s'.format = s.format ∧ s'.nVertices = s.nVertices ∧ s'.nFaces = s.nFaces

theorem Frame.trans {a b c : PlyHeaderState} (h : Frame a b) (h' : Frame b c) : Frame a c := by
  obtain ⟨h1, h2, h3, h4, h5⟩ := h
  obtain ⟨g1, g2, g3, g4, g5⟩ := h'
  exact ⟨g1.trans h1, g2.trans h2, g3.trans h3, g4.trans h4, g5.trans h5⟩

theorem Frame.ready {a b : PlyHeaderState} (h : Frame a b) (ha : Ready a) : Ready b := ⟨by rw [h.1]; exact ha.1, by rw [h.2.2.1]; exact ha.2⟩

theorem vertexStep_frame {s s' : PlyHeaderState} {i : VertexItem} (h : vertexStep s i = some s') : Frame s s' := by
  cases i with
  | other n =>
    simp only [vertexStep, Option.some.injEq] at h
    subst h
    unfold addOther Frame
    split_ifs <;> exact ⟨rfl, rfl, rfl, rfl, rfl⟩
  | coord a t =>
    simp only [vertexStep, PlyHeaderState.addAxis] at h
    split_ifs at h
    simp only [Option.some.injEq] at h
    subst h
    cases a <;> exact ⟨rfl, rfl, rfl, rfl, rfl⟩

theorem faceStep_frame (s : PlyHeaderState) (i : FaceItem) : Frame s (faceStep s i) := by
  cases i with
  | other n => simp only [faceStep, addFaceOther]; split_ifs <;> exact ⟨rfl, rfl, rfl, rfl, rfl⟩
  | list tc ti => exact ⟨rfl, rfl, rfl, rfl, rfl⟩
  | ignored => exact ⟨rfl, rfl, rfl, rfl, rfl⟩

theorem Advances.comments_inv {ls : List Bytes} {s s' : PlyHeaderState} (h : Advances ls s s') : Advances (ls.filter fun l => !isComment l) s s' := by
  induction ls generalizing s with
  | nil => exact h
  | cons l ls ih =>
    obtain ⟨t, h1, h2⟩ := h
    by_cases hc : isComment l = true
    · rw [List.filter_cons_of_neg (by simp [hc])]
      have : t = s := by
        simp only [isComment, Bool.or_eq_true] at hc
        unfold plyHeaderLine at h1
        by_cases h1' : startsWith l b!"comment" = true
        · rw [if_pos h1'] at h1; simp at h1; exact h1.symm
        · rw [if_neg h1', if_pos (show startsWith _ _ = true from hc.resolve_left h1')] at h1; simp at h1; exact h1.symm
      exact ih (this ▸ h2)
    · rw [List.filter_cons_of_pos (by simp [hc])]
      exact ⟨t, h1, ih h2⟩

/-- the lines behind the one that declares vertices -/
theorem vertices_inv {ls : List Bytes} {s s' : PlyHeaderState} (h : Advances ls s s') (hc : ∀ l ∈ ls, isComment l = false) (hs : Ready s)
    (hr : s.readState = .Vertex) (hv : s.nVertices ≠ none) : ∃ vs items tail s1, ls = vs ++ tail ∧ List.Forall₂ (fun l (i : VertexItem) => i.Line l) vs items ∧
      items.foldlM vertexStep s = some s1 ∧ Frame s s1 ∧
      ((tail = [] ∧ s' = s1) ∨ ∃ lf n fs, tail = lf :: fs ∧ s.nFaces = none ∧ ElementLine b!"face" lf n ∧
        Advances fs { s1 with readState := .Face, nFaces := some n } s') := by
  induction ls generalizing s with
  | nil => exact ⟨[], [], [], s, rfl, .nil, rfl, ⟨rfl, rfl, rfl, rfl, rfl⟩, .inl ⟨rfl, Eq.symm h⟩⟩
  | cons l ls ih =>
    obtain ⟨t, h1, h2⟩ := h
    rcases line_next hs (hc l (by simp)) h1 with ⟨g, -⟩ | ⟨g, n, g1, rfl⟩ | ⟨gp, ⟨-, g⟩ | ⟨g, -⟩⟩
    · exact absurd g hv
    · exact ⟨[], [], l :: ls, s, rfl, .nil, rfl, ⟨rfl, rfl, rfl, rfl, rfl⟩, .inr ⟨l, n, ls, rfl, g, g1, h2⟩⟩
    · obtain ⟨i, hi, hst⟩ : ∃ i : VertexItem, i.Line l ∧ vertexStep s i = some t := by
        rcases vertexProperty_inv gp g with ⟨n, o1, o2⟩ | ⟨a, ty, o1, o2⟩
        · exact ⟨.other n, o1, by rw [o2]; rfl⟩
        · exact ⟨.coord a ty, o1, o2⟩
      have fr := vertexStep_frame hst
      obtain ⟨vs, items, tail, s1, e, f1, f2, f3, f4⟩ := ih h2 (fun l hl => hc l (List.mem_cons_of_mem _ hl)) (fr.ready hs)
        (by rw [fr.2.1, hr]) (by rw [fr.2.2.2.1]; exact hv)
      refine ⟨l :: vs, i :: items, tail, s1, by rw [e]; rfl, .cons hi f1, ?_, fr.trans f3, ?_⟩
      · rw [List.foldlM_cons, hst]; exact f2
      · rw [fr.2.2.2.2] at f4; exact f4
    · rw [hr] at g; cases g

/-- the lines behind the one that declares faces -/
theorem faces_inv {ls : List Bytes} {s s' : PlyHeaderState} (h : Advances ls s s') (hc : ∀ l ∈ ls, isComment l = false) (hs : Ready s)
    (hr : s.readState = .Face) (hv : s.nFaces ≠ none) : ∃ fs items tail s1, ls = fs ++ tail ∧ List.Forall₂ (fun l (i : FaceItem) => i.Line l) fs items ∧
      items.foldl faceStep s = s1 ∧ Frame s s1 ∧
      ((tail = [] ∧ s' = s1) ∨ ∃ lv n vs, tail = lv :: vs ∧ s.nVertices = none ∧ ElementLine b!"vertex" lv n ∧
        Advances vs { s1 with readState := .Vertex, nVertices := some n } s') := by
  induction ls generalizing s with
  | nil => exact ⟨[], [], [], s, rfl, .nil, rfl, ⟨rfl, rfl, rfl, rfl, rfl⟩, .inl ⟨rfl, Eq.symm h⟩⟩
  | cons l ls ih =>
    obtain ⟨t, h1, h2⟩ := h
    rcases line_next hs (hc l (by simp)) h1 with ⟨g, n, g1, rfl⟩ | ⟨g, -⟩ | ⟨gp, ⟨g, -⟩ | ⟨-, g⟩⟩
    · exact ⟨[], [], l :: ls, s, rfl, .nil, rfl, ⟨rfl, rfl, rfl, rfl, rfl⟩, .inr ⟨l, n, ls, rfl, g, g1, h2⟩⟩
    · exact absurd g hv
    · rw [hr] at g; cases g
    · obtain ⟨i, i1, rfl⟩ := faceProperty_inv gp g
      have fr := faceStep_frame s i
      obtain ⟨vs, items, tail, s1, e, f1, f2, f3, f4⟩ := ih h2 (fun l hl => hc l (List.mem_cons_of_mem _ hl)) (fr.ready hs)
        (by rw [fr.2.1, hr]) (by rw [fr.2.2.2.2]; exact hv)
      refine ⟨l :: vs, i :: items, tail, s1, by rw [e]; rfl, .cons i1 f1, f2, fr.trans f3, ?_⟩
      rw [fr.2.2.2.1] at f4; exact f4

/-! ### what the lines of the vertices say -/

theorem items_split (items : List VertexItem) : ∃ ns : List Nat, items = ns.map .other ∨ ∃ a t rest, items = ns.map .other ++ .coord a t :: rest := by
  induction items with
  | nil => exact ⟨[], .inl rfl⟩
  | cons i items ih =>
    cases i with
    | coord a t => exact ⟨[], .inr ⟨a, t, items, rfl⟩⟩
    | other n =>
      obtain ⟨ns, h | ⟨a, t, rest, h⟩⟩ := ih
      · exact ⟨n :: ns, .inl (by rw [h]; rfl)⟩
      · exact ⟨n :: ns, .inr ⟨a, t, rest, by rw [h]; rfl⟩⟩

theorem fold_others (ns : List Nat) (s : PlyHeaderState) : (ns.map VertexItem.other).foldlM vertexStep s = some (addOther s ns.sum ns.length) := by
  induction ns generalizing s with
  | nil => simp [addOther_zero]
  | cons n ns ih =>
    rw [List.map_cons, List.foldlM_cons]
    show (ns.map VertexItem.other).foldlM vertexStep (addOther s n 1) = _
    rw [ih, addOther_add, List.sum_cons, List.length_cons, Nat.add_comm ns.length]

theorem fold_split {items : List VertexItem} {s s' : PlyHeaderState} (h : items.foldlM vertexStep s = some s') :
    ∃ ns : List Nat, (items = ns.map .other ∧ s' = addOther s ns.sum ns.length) ∨
      ∃ a t rest s1, items = ns.map .other ++ .coord a t :: rest ∧ (setType (addOther s ns.sum ns.length) t a).addAxis a = some s1 ∧
        rest.foldlM vertexStep s1 = some s' := by
  obtain ⟨ns, rfl | ⟨a, t, rest, rfl⟩⟩ := items_split items
  · rw [fold_others] at h
    exact ⟨ns, .inl ⟨rfl, by simpa using h.symm⟩⟩
  · rw [List.foldlM_append, fold_others] at h
    simp only [Option.bind_eq_bind, Option.bind_some, List.foldlM_cons] at h
    obtain ⟨s1, h1, h2⟩ := Option.bind_eq_some_iff.1 h
    exact ⟨ns, .inr ⟨a, t, rest, s1, rfl, h1, h2⟩⟩

theorem lines_others {vs : List Bytes} {ns : List Nat} (h : List.Forall₂ (fun l (i : VertexItem) => i.Line l) vs (ns.map .other)) :
    List.Forall₂ OtherLine vs ns := by
  rw [List.forall₂_map_right_iff] at h
  exact h

theorem lines_split {vs : List Bytes} {ns : List Nat} {a : PlyAxis} {t : VertexType} {rest : List VertexItem}
    (h : List.Forall₂ (fun l (i : VertexItem) => i.Line l) vs (ns.map .other ++ .coord a t :: rest)) :
    ∃ ls l tail, vs = ls ++ l :: tail ∧ List.Forall₂ OtherLine ls ns ∧ CoordLine l a t ∧
      List.Forall₂ (fun l (i : VertexItem) => i.Line l) tail rest := by
  obtain ⟨la, lb, rfl, h1, h2⟩ := forall₂_split h
  cases h2 with
  | cons h3 h4 => exact ⟨la, _, _, rfl, lines_others h1, h3, h4⟩

theorem vertices_known {items : List VertexItem} {vs : List Bytes} (hl : List.Forall₂ (fun l (i : VertexItem) => i.Line l) vs items)
    {s s' : PlyHeaderState} (h : items.foldlM vertexStep s = some s') (h1 : s.vertexOrder = [.X, .X, .X]) (h2 : s.iVertexOrder = 0)
    (h3 : s.nTypesFound = 0) (h4 : s.fstType = none) (h5 : s.sndType = none) (h6 : s.thirdType = none) (h7 : s.vertexBefore = ⟨0, 0⟩)
    (h8 : s.vertexBetweenFirstSnd = ⟨0, 0⟩) (h9 : s.vertexBetweenSndThird = ⟨0, 0⟩) (h10 : s.after = ⟨0, 0⟩)
    (x : s'.fstType ≠ none) (y : s'.sndType ≠ none) (z : s'.thirdType ≠ none) :
    ∃ d : VertexDecl, d.Distinct ∧ d.Lines vs ∧ s' = { s with
      vertexOrder := [d.a1, d.a2, d.a3], iVertexOrder := 3, fstType := some (d.typeOf .X), sndType := some (d.typeOf .Y),
      thirdType := some (d.typeOf .Z), nTypesFound := 3, vertexBefore := total d.before, vertexBetweenFirstSnd := total d.mid1,
      vertexBetweenSndThird := total d.mid2, after := total d.after } := by
  obtain ⟨n0, ⟨-, rfl⟩ | ⟨a1, t1, r1, s1, rfl, g1, h⟩⟩ := fold_split h
  · simp [addOther, h3, h4] at x
  obtain ⟨l0, c1, m1, rfl, k0, k1, hl⟩ := lines_split hl
  simp only [addOther, h3, if_true] at g1
  obtain ⟨n1, ⟨-, rfl⟩ | ⟨a2, t2, r2, s2, rfl, g2, h⟩⟩ := fold_split h
  · exfalso
    cases a1 <;> simp [setType, PlyHeaderState.addAxis, h1, h2] at g1 <;> subst g1 <;> simp_all [addOther]
  obtain ⟨l1, c2, m2, rfl, k2, k3, hl⟩ := lines_split hl
  obtain ⟨n2, ⟨-, rfl⟩ | ⟨a3, t3, r3, s3, rfl, g3, h⟩⟩ := fold_split h
  · exfalso
    cases a1 <;> simp [setType, PlyHeaderState.addAxis, h1, h2] at g1 <;> subst g1 <;> cases a2 <;>
      simp [setType, PlyHeaderState.addAxis, addOther] at g2 <;> subst g2 <;> simp_all [addOther]
  obtain ⟨l2, c3, m3, rfl, k4, k5, hl⟩ := lines_split hl
  have e3 : s3.iVertexOrder = 3 ∧ s3.vertexOrder.length = 3 ∧ s3.nTypesFound = 3 := by
    cases a1 <;> simp [setType, PlyHeaderState.addAxis, h1, h2] at g1 <;> subst g1 <;> cases a2 <;>
      simp [setType, PlyHeaderState.addAxis, addOther] at g2 <;> subst g2 <;> cases a3 <;>
      simp [setType, PlyHeaderState.addAxis, addOther] at g3 <;> subst g3 <;> simp
  obtain ⟨n3, ⟨rfl, rfl⟩ | ⟨a4, t4, r4, s4, rfl, g4, h⟩⟩ := fold_split h
  swap
  · exfalso
    cases a4 <;> simp [setType, PlyHeaderState.addAxis, addOther, e3] at g4
  refine ⟨⟨n0, a1, t1, n1, a2, t2, n2, a3, t3, n3⟩, ?_, ?_, ?_⟩
  · show a1 ≠ a2 ∧ a1 ≠ a3 ∧ a2 ≠ a3
    cases a1 <;> simp [setType, PlyHeaderState.addAxis, h1, h2] at g1 <;> subst g1 <;> cases a2 <;>
      simp [setType, PlyHeaderState.addAxis, addOther] at g2 <;> subst g2 <;> cases a3 <;>
      simp [setType, PlyHeaderState.addAxis, addOther] at g3 <;> subst g3 <;> simp_all [addOther]
  · exact ⟨l0, c1, l1, c2, l2, c3, m3, rfl, k0, k1, k2, k3, k4, k5, lines_others hl⟩
  · clear e3
    cases a1 <;> simp [setType, PlyHeaderState.addAxis, h1, h2] at g1 <;> subst g1 <;> cases a2 <;>
      simp [setType, PlyHeaderState.addAxis, addOther] at g2 <;> subst g2 <;> cases a3 <;>
      simp [setType, PlyHeaderState.addAxis, addOther] at g3 <;> subst g3 <;>
      first
      | (exfalso; simp_all [addOther]; done)
      | simp [addOther, total, VertexDecl.typeOf, h7, h8, h9, h10]

/-! ### what the lines of the faces say -/

theorem fold_no_list {items : List FaceItem} (h : ∀ tc ti, FaceItem.list tc ti ∉ items) (s : PlyHeaderState) :
    items.foldl faceStep s = addFaceOther s (otherSizes items).sum (otherSizes items).length := by
  induction items generalizing s with
  | nil => exact (addFaceOther_zero s).symm
  | cons i items ih =>
    have h' : ∀ tc ti, FaceItem.list tc ti ∉ items := fun tc ti hm => h tc ti (List.mem_cons_of_mem _ hm)
    rw [List.foldl_cons, ih h']
    cases i with
    | other n =>
      show addFaceOther (addFaceOther s n 1) _ _ = addFaceOther s (n :: otherSizes items).sum (n :: otherSizes items).length
      rw [addFaceOther_add, List.sum_cons, List.length_cons, Nat.add_comm (otherSizes items).length]
    | list tc ti => exact absurd (by simp) (h tc ti)
    | ignored => rfl

theorem fold_behind (post : List FaceItem) {s : PlyHeaderState} {tc ti : FaceType} (h1 : s.faceCountType = some tc) (h2 : s.faceIndexType = some ti) :
    ∃ tc' ti', (((∀ tc ti, FaceItem.list tc ti ∉ post) ∧ tc' = tc ∧ ti' = ti) ∨
      ∃ p q, post = p ++ .list tc' ti' :: q ∧ ∀ tc ti, FaceItem.list tc ti ∉ q) ∧
      post.foldl faceStep s = { s with faceCountType := some tc', faceIndexType := some ti', faceAfter :=
        ⟨s.faceAfter.bytes + (otherSizes post).sum, s.faceAfter.words + (otherSizes post).length⟩ } := by
  induction post generalizing s tc ti with
  | nil => exact ⟨tc, ti, .inl ⟨by simp, rfl, rfl⟩, by rw [← h1, ← h2]; rfl⟩
  | cons i post ih =>
    rw [List.foldl_cons]
    cases i with
    | other n =>
      have e : faceStep s (.other n) = { s with faceAfter := ⟨s.faceAfter.bytes + n, s.faceAfter.words + 1⟩ } := by
        simp [faceStep, addFaceOther, h1]
      obtain ⟨tc', ti', g1, g2⟩ := ih (s := faceStep s (.other n)) (tc := tc) (ti := ti) (by rw [e]; exact h1) (by rw [e]; exact h2)
      refine ⟨tc', ti', ?_, ?_⟩
      · rcases g1 with ⟨g, e1, e2⟩ | ⟨p, q, rfl, g⟩
        · exact .inl ⟨by simpa using g, e1, e2⟩
        · exact .inr ⟨.other n :: p, q, rfl, g⟩
      · rw [g2, e]
        simp [otherSizes, Nat.add_assoc, Nat.add_comm 1]
    | list tc2 ti2 =>
      obtain ⟨tc', ti', g1, g2⟩ := ih (s := faceStep s (.list tc2 ti2)) (tc := tc2) (ti := ti2) rfl rfl
      refine ⟨tc', ti', .inr ?_, ?_⟩
      · rcases g1 with ⟨g, rfl, rfl⟩ | ⟨p, q, rfl, g⟩
        · exact ⟨[], post, rfl, g⟩
        · exact ⟨.list tc2 ti2 :: p, q, rfl, g⟩
      · rw [g2]
        simp [otherSizes, faceStep]
    | ignored =>
      obtain ⟨tc', ti', g1, g2⟩ := ih (s := s) (tc := tc) (ti := ti) h1 h2
      refine ⟨tc', ti', ?_, ?_⟩
      · rcases g1 with ⟨g, e1, e2⟩ | ⟨p, q, rfl, g⟩
        · exact .inl ⟨by simpa using g, e1, e2⟩
        · exact .inr ⟨.ignored :: p, q, rfl, g⟩
      · rw [show faceStep s .ignored = s from rfl, g2]
        simp [otherSizes]

theorem first_list (items : List FaceItem) : (∀ tc ti, FaceItem.list tc ti ∉ items) ∨
    ∃ pre tc ti post, items = pre ++ .list tc ti :: post ∧ ∀ tc ti, FaceItem.list tc ti ∉ pre := by
  induction items with
  | nil => exact .inl (by simp)
  | cons i items ih =>
    by_cases hi : ∃ tc ti, i = .list tc ti
    · obtain ⟨tc, ti, rfl⟩ := hi
      exact .inr ⟨[], tc, ti, items, rfl, by simp⟩
    · have hi' : ∀ tc ti, FaceItem.list tc ti ≠ i := fun tc ti h => hi ⟨tc, ti, h.symm⟩
      rcases ih with h | ⟨pre, tc, ti, post, rfl, h⟩
      · refine .inl fun tc ti hm => ?_
        rcases List.mem_cons.1 hm with hm | hm
        · exact hi' tc ti hm
        · exact h tc ti hm
      · refine .inr ⟨i :: pre, tc, ti, post, rfl, fun tc ti hm => ?_⟩
        rcases List.mem_cons.1 hm with hm | hm
        · exact hi' tc ti hm
        · exact h tc ti hm

/-- the faces of the header -/
def faceData (s : PlyHeaderState) : Option PlyFaceData :=
  match s.nFaces, s.faceCountType, s.faceIndexType with
  | some n, some c, some i => some ⟨n, c, i, s.faceBefore, s.faceAfter⟩
  | _, _, _ => none

theorem faces_known (items : List FaceItem) {s : PlyHeaderState} {n : Nat} (h0 : s.nFaces = some n) (h1 : s.faceCountType = none)
    (h3 : s.faceBefore = ⟨0, 0⟩) (h4 : s.faceAfter = ⟨0, 0⟩) :
    FaceKnown n items (faceData (items.foldl faceStep s)) := by
  rcases first_list items with h | ⟨pre, tc, ti, post, rfl, h⟩
  · rw [fold_no_list h]
    have e : addFaceOther s (otherSizes items).sum (otherSizes items).length =
        { s with faceBefore := ⟨(otherSizes items).sum, (otherSizes items).length⟩ } := by simp [addFaceOther, h1, h3]
    refine .inl ⟨?_, h⟩
    rw [e]
    simp [faceData, h0, h1]
  · rw [List.foldl_append, fold_no_list h, List.foldl_cons]
    have e : faceStep (addFaceOther s (otherSizes pre).sum (otherSizes pre).length) (.list tc ti) =
        { s with faceCountType := some tc, faceIndexType := some ti, faceBefore := total (otherSizes pre) } := by
      simp [faceStep, addFaceOther, h1, h3, total]
    rw [e]
    obtain ⟨tc', ti', g1, g2⟩ := fold_behind post
      (s := { s with faceCountType := some tc, faceIndexType := some ti, faceBefore := total (otherSizes pre) }) rfl rfl
    rw [g2]
    refine .inr ⟨pre, tc, ti, post, tc', ti', rfl, h, g1, ?_⟩
    simp [faceData, h0, h4, total]

/-! ### the whole header -/

theorem endHeader_inv {s : PlyHeaderState} {hdr : PlyHeader} (h : plyEndHeader s = .ok hdr) :
    s.format = some hdr.format ∧ s.nVertices = some hdr.vertex.count ∧ s.fstType = some hdr.vertex.first ∧ s.sndType = some hdr.vertex.snd ∧
      s.thirdType = some hdr.vertex.third ∧ VertexOrder.tryFrom s.vertexOrder = .ok hdr.vertex.order ∧ hdr.vertex.before = s.vertexBefore ∧
      hdr.vertex.betweenFirstSnd = s.vertexBetweenFirstSnd ∧ hdr.vertex.betweenSndThird = s.vertexBetweenSndThird ∧ hdr.vertex.after = s.after ∧
      hdr.face = faceData s := by
  unfold plyEndHeader at h
  split at h
  · rename_i f n x y z h1 h2 h3 h4 h5
    cases ho : VertexOrder.tryFrom s.vertexOrder with
    | error e => rw [ho] at h; cases h
    | ok o =>
      rw [ho] at h
      injection h with h
      subst h
      exact ⟨h1, h2, h3, h4, h5, rfl, rfl, rfl, rfl, rfl, rfl⟩
  · cases h

theorem order_inv {a b c : PlyAxis} {o : VertexOrder} (h : VertexOrder.tryFrom [a, b, c] = .ok o) : (a, b, c, o) ∈ orders := by
  cases a <;> cases b <;> cases c <;> first | (cases h; done) | (injection h with h; subst h; decide)

theorem fetchLine_inv {s l r : Bytes} (h : fetchLine s = some (l, r)) :
    ∃ c b, s = c ++ b :: r ∧ (10 : UInt8) ∉ c ∧ (b = 10 ∨ b ≠ 10 ∧ r = []) ∧ Trimmed c l := by
  have key : ∀ s : Bytes, s = [] ∨ ∃ c b, (readUntilNl s).1 = c ++ [b] ∧ s = c ++ b :: (readUntilNl s).2 ∧ (10 : UInt8) ∉ c ∧
      (b = 10 ∨ b ≠ 10 ∧ (readUntilNl s).2 = []) := by
    intro s
    induction s with
    | nil => exact .inl rfl
    | cons x s ih =>
      refine .inr ?_
      by_cases hx : x = 10
      · exact ⟨[], x, by simp [readUntilNl, hx], by simp [readUntilNl, hx], by simp, .inl hx⟩
      · rcases ih with rfl | ⟨c, b, h1, h2, h3, h4⟩
        · exact ⟨[], x, by simp [readUntilNl, hx], by simp [readUntilNl, hx], by simp, .inr ⟨hx, by simp [readUntilNl, hx]⟩⟩
        · refine ⟨x :: c, b, ?_, ?_, ?_, ?_⟩
          · simp [readUntilNl, hx, h1]
          · simp only [readUntilNl, hx, if_false, List.cons_append]
            rw [← h2]
          · simp only [List.mem_cons, not_or]
            exact ⟨Ne.symm hx, h3⟩
          · simpa [readUntilNl, hx] using h4
  unfold fetchLine at h
  dsimp only at h
  split_ifs at h with h0
  simp only [Option.some.injEq, Prod.mk.injEq] at h
  obtain ⟨rfl, rfl⟩ := h
  rcases key s with rfl | ⟨c, b, h1, h2, h3, h4⟩
  · simp [readUntilNl] at h0
  · refine ⟨c, b, h2, h3, h4, ?_⟩
    have := cleanLine_spec (readUntilNl s).1
    rw [h1, List.dropLast_concat] at this
    rw [h1]
    exact this

theorem headerLoop_inv {n : Nat} {read : Bytes} {i : Nat} {s : PlyHeaderState} {hdr : PlyHeader} {rest : Bytes} {m : Nat}
    (h : plyHeaderLoop n read i s = some (.ok (hdr, rest, m))) :
    ∃ pre last s', Fetched read (pre ++ [last]) rest ∧ m = i + (pre.length + 1) ∧ Advances pre s s' ∧
      plyHeaderLine last s' = some (.ok (.done hdr)) := by
  induction n generalizing read i s with
  | zero => simp [plyHeaderLoop] at h
  | succ n ih =>
    rw [plyHeaderLoop] at h
    cases hf : fetchLine read with
    | none => rw [hf] at h; simp at h
    | some lr =>
      obtain ⟨l, r⟩ := lr
      rw [hf] at h
      dsimp only at h
      obtain ⟨c, b, rfl, h1, h2, h3⟩ := fetchLine_inv hf
      cases hl : plyHeaderLine l s with
      | none => rw [hl] at h; simp at h
      | some q =>
        rw [hl] at h
        rcases q with e | s1 | hd
        · simp at h
        · dsimp only at h
          obtain ⟨pre, last, s', g1, g2, g3, g4⟩ := ih h
          exact ⟨l :: pre, last, s', .cons h1 h2 h3 g1, by rw [g2, List.length_cons]; omega, ⟨s1, hl, g3⟩, g4⟩
        · simp only [Option.some.injEq, Except.ok.injEq, Prod.mk.injEq] at h
          obtain ⟨rfl, rfl, rfl⟩ := h
          exact ⟨[], l, s, .cons h1 h2 h3 .nil, rfl, rfl, hl⟩

theorem start_inv {ls : List Bytes} {s' : PlyHeaderState} (h : Advances ls PlyHeaderState.init s') (hc : ∀ l ∈ ls, isComment l = false)
    (h1 : s'.plyFound = true) (h2 : s'.format ≠ none) :
    ∃ f body, ls = b!"ply" :: formatLine f :: body ∧ Advances body { PlyHeaderState.init with plyFound := true, format := some f } s' := by
  cases ls with
  | nil => cases h; simp [PlyHeaderState.init] at h1
  | cons l ls =>
    obtain ⟨t, g1, g2⟩ := h
    have c1 := hc l (by simp)
    simp only [isComment, Bool.or_eq_false_iff] at c1
    unfold plyHeaderLine at g1
    rw [if_neg (by rw [show startsWith l b!"comment" = _ from c1.1]; decide),
      if_neg (by rw [show startsWith l b!"obj_info" = _ from c1.2]; decide), if_pos (by rfl)] at g1
    split_ifs at g1 with hp
    · simp at g1
      subst g1
      cases ls with
      | nil => cases g2; simp [PlyHeaderState.init] at h2
      | cons l2 ls =>
        obtain ⟨t, k1, k2⟩ := g2
        have c2 := hc l2 (by simp)
        simp only [isComment, Bool.or_eq_false_iff] at c2
        unfold plyHeaderLine at k1
        rw [if_neg (by rw [show startsWith l2 b!"comment" = _ from c2.1]; decide),
          if_neg (by rw [show startsWith l2 b!"obj_info" = _ from c2.2]; decide), if_neg (by simp), if_pos (by rfl)] at k1
        cases hf : plyFormatLine l2 with
        | error e => rw [hf] at k1; simp at k1
        | ok f =>
          rw [hf] at k1
          simp at k1
          subst k1
          refine ⟨f, ls, ?_, k2⟩
          have : l2 = formatLine f := by
            unfold plyFormatLine at hf
            split_ifs at hf with q1 q2 q3
            · injection hf with hf; subst hf; exact q1
            · injection hf with hf; subst hf; exact q2
            · injection hf with hf; subst hf; exact q3
          rw [this, hp]
    · simp at g1

/-- the same is known of the vertices -/
def SameVertices (s s' : PlyHeaderState) : Prop :=
  s'.vertexOrder = s.vertexOrder ∧ s'.fstType = s.fstType ∧ s'.sndType = s.sndType ∧ s'.thirdType = s.thirdType ∧
    s'.vertexBefore = s.vertexBefore ∧ s'.vertexBetweenFirstSnd = s.vertexBetweenFirstSnd ∧
    s'.vertexBetweenSndThird = s.vertexBetweenSndThird ∧ s'.after = s.after

/-- nothing is known of the vertices -/
def NoVertices (s : PlyHeaderState) : Prop :=
  s.vertexOrder = [.X, .X, .X] ∧ s.iVertexOrder = 0 ∧ s.nTypesFound = 0 ∧ s.fstType = none ∧ s.sndType = none ∧ s.thirdType = none ∧
    s.vertexBefore = ⟨0, 0⟩ ∧ s.vertexBetweenFirstSnd = ⟨0, 0⟩ ∧ s.vertexBetweenSndThird = ⟨0, 0⟩ ∧ s.after = ⟨0, 0⟩

/-- the same is known of the faces -/
def SameFaces (s s' : PlyHeaderState) : Prop :=
  s'.nFaces = s.nFaces ∧ s'.faceCountType = s.faceCountType ∧ s'.faceIndexType = s.faceIndexType ∧ s'.faceBefore = s.faceBefore ∧
    s'.faceAfter = s.faceAfter

theorem vertexPart {l : Bytes} {vs : List Bytes} {items : List VertexItem} {s s2 s' : PlyHeaderState} {nv : Nat} {hdr : PlyHeader}
    (gv : ElementLine b!"vertex" l nv) (v1 : List.Forall₂ (fun l (i : VertexItem) => i.Line l) vs items)
    (v2 : items.foldlM vertexStep s = some s2) (hs : NoVertices s) (he : plyEndHeader s' = .ok hdr) (hq : SameVertices s2 s')
    (hn : s'.nVertices = some nv) : VertexPart (l :: vs) hdr.vertex ∧ SameFaces s s2 := by
  obtain ⟨e1, e2, e3, e4, e5, e6, e7, e8, e9, e10, e11⟩ := endHeader_inv he
  obtain ⟨q4, q1, q2, q3, q5, q6, q7, q8⟩ := hq
  obtain ⟨a1, a2, a3, a4, a5, a6, a7, a8, a9, a10⟩ := hs
  obtain ⟨d, d1, d2, d3⟩ := vertices_known v1 v2 a1 a2 a3 a4 a5 a6 a7 a8 a9 a10 (by rw [← q1, e3]; simp) (by rw [← q2, e4]; simp)
    (by rw [← q3, e5]; simp)
  have hn : nv = hdr.vertex.count := by rw [hn] at e2; simpa using e2
  subst hn
  rw [q1] at e3; rw [q2] at e4; rw [q3] at e5; rw [q4] at e6; rw [q5] at e7; rw [q6] at e8; rw [q7] at e9; rw [q8] at e10
  rw [d3] at e3 e4 e5 e6 e7 e8 e9 e10
  refine ⟨⟨l, vs, d, rfl, gv, d1, d2, order_inv e6, ?_, ?_, ?_, e7, e8, e9, e10⟩, by rw [d3]; exact ⟨rfl, rfl, rfl, rfl, rfl⟩⟩
  · simpa using e3.symm
  · simpa using e4.symm
  · simpa using e5.symm

theorem fold_faces_vertices (items : List FaceItem) (s : PlyHeaderState) : SameVertices s (items.foldl faceStep s) ∧
    (NoVertices s → NoVertices (items.foldl faceStep s)) := by
  induction items generalizing s with
  | nil => exact ⟨⟨rfl, rfl, rfl, rfl, rfl, rfl, rfl, rfl⟩, id⟩
  | cons i items ih =>
    rw [List.foldl_cons]
    obtain ⟨⟨h1, h2, h3, h4, h5, h6, h7, h8⟩, h⟩ := ih (faceStep s i)
    have key : SameVertices s (faceStep s i) ∧ (faceStep s i).iVertexOrder = s.iVertexOrder ∧ (faceStep s i).nTypesFound = s.nTypesFound := by
      cases i with
      | other n => simp only [faceStep, addFaceOther]; split_ifs <;> exact ⟨⟨rfl, rfl, rfl, rfl, rfl, rfl, rfl, rfl⟩, rfl, rfl⟩
      | list tc ti => exact ⟨⟨rfl, rfl, rfl, rfl, rfl, rfl, rfl, rfl⟩, rfl, rfl⟩
      | ignored => exact ⟨⟨rfl, rfl, rfl, rfl, rfl, rfl, rfl, rfl⟩, rfl, rfl⟩
    obtain ⟨⟨g1, g2, g3, g4, g5, g6, g7, g8⟩, g9, g10⟩ := key
    refine ⟨⟨h1.trans g1, h2.trans g2, h3.trans g3, h4.trans g4, h5.trans g5, h6.trans g6, h7.trans g7, h8.trans g8⟩, fun hn => h ?_⟩
    obtain ⟨a1, a2, a3, a4, a5, a6, a7, a8, a9, a10⟩ := hn
    exact ⟨g1.trans a1, g9.trans a2, g10.trans a3, g2.trans a4, g3.trans a5, g4.trans a6, g5.trans a7, g6.trans a8, g7.trans a9, g8.trans a10⟩

theorem SameFaces.data {s s' : PlyHeaderState} (h : SameFaces s s') : faceData s' = faceData s := by
  obtain ⟨h1, h2, h3, h4, h5⟩ := h
  unfold faceData
  rw [h1, h2, h3, h4, h5]

/-- C111: if `load_ply_*` gets past the header, the lines it read are: comments aside, `ply`, the format, the declaration of the
vertices with each coordinate once, and maybe the one of the faces, then `end_header`. Nothing else is accepted, the header of
the model says just what these lines say, and what is not read yet is what follows these lines. -/
theorem c111_accepted {file rest : Bytes} {hdr : PlyHeader} {n : Nat} (h : plyLoadHeader file = some (.ok (hdr, rest, n))) :
    ∃ ls, Fetched file ls rest ∧ ls.length = n ∧ AcceptedHeader ls hdr := by
  obtain ⟨pre, last, s', f1, rfl, f3, f4⟩ := headerLoop_inv h
  obtain ⟨rfl, p1, p2⟩ := line_done f4
  refine ⟨pre ++ [b!"end_header"], f1, by simp, ?_⟩
  obtain ⟨e1, e2, -, -, -, -, -, -, -, -, e11⟩ := endHeader_inv p2
  have hc : ∀ l ∈ pre.filter (fun l => !isComment l), isComment l = false := fun l hl => by simpa using (List.mem_filter.1 hl).2
  have A := f3.comments_inv
  unfold AcceptedHeader
  generalize hpre : pre.filter (fun l => !isComment l) = core at A hc
  obtain ⟨f, body, rfl, B⟩ := start_inv A hc p1 (by rw [e1]; simp)
  have hcb : ∀ l ∈ body, isComment l = false := fun l hl => hc l (by simp [hl])
  suffices H : s'.format = some f ∧ ∃ v f, VertexPart v hdr.vertex ∧ (f = [] ∧ hdr.face = none ∨ FacePart f hdr.face) ∧
      (body = v ++ f ∨ body = f ++ v) by
    obtain ⟨H1, v, f', P, Q, R⟩ := H
    have hf : f = hdr.format := by rw [e1] at H1; simpa using H1.symm
    subst hf
    refine ⟨pre, v, f', rfl, P, Q, ?_⟩
    rw [hpre]
    rcases R with rfl | rfl
    · exact .inl rfl
    · exact .inr rfl
  clear hpre A hc
  cases body with
  | nil => cases B; simp [PlyHeaderState.init] at e2
  | cons l body =>
    obtain ⟨s1, b1, b2⟩ := B
    have hcl : ∀ l ∈ body, isComment l = false := fun l hl => hcb l (by simp [hl])
    rcases line_next ⟨rfl, rfl⟩ (hcb l (by simp)) b1 with ⟨-, nv, gv, rfl⟩ | ⟨-, nf, gf, rfl⟩ | ⟨-, ⟨g, -⟩ | ⟨g, -⟩⟩
    · -- the vertices come first
      obtain ⟨vs, items, tail, s2, rfl, v1, v2, fr, v3⟩ := vertices_inv b2 hcl ⟨rfl, rfl⟩ rfl (by simp)
      rcases v3 with ⟨rfl, rfl⟩ | ⟨lf, nf, fs, rfl, -, gf, B'⟩
      · obtain ⟨P, Q⟩ := vertexPart (s' := s') gv v1 v2 ⟨rfl, rfl, rfl, rfl, rfl, rfl, rfl, rfl, rfl, rfl⟩ p2
          ⟨rfl, rfl, rfl, rfl, rfl, rfl, rfl, rfl⟩ fr.2.2.2.1
        exact ⟨fr.2.2.1, l :: vs, [], P, .inl ⟨rfl, by rw [e11, Q.data]; rfl⟩, .inl (by simp)⟩
      · obtain ⟨fs', fitems, tail, s3, rfl, w1, w2, fr', w3⟩ := faces_inv B' (fun l hl => hcl l (by simp at hl ⊢; tauto)) (fr.ready ⟨rfl, rfl⟩)
          rfl (by simp)
        rcases w3 with ⟨rfl, rfl⟩ | ⟨lv, n, vs', rfl, g, -⟩
        swap
        · have := fr.2.2.2.1
          rw [show s2.nVertices = none from g] at this
          cases this
        subst w2
        obtain ⟨k1, -⟩ := fold_faces_vertices fitems { s2 with readState := .Face, nFaces := some nf }
        obtain ⟨P, -, q2, -, q4, q5⟩ := vertexPart gv v1 v2 ⟨rfl, rfl, rfl, rfl, rfl, rfl, rfl, rfl, rfl, rfl⟩ p2 k1
          (fr'.2.2.2.1.trans fr.2.2.2.1)
        refine ⟨fr'.2.2.1.trans fr.2.2.1, l :: vs, lf :: fs', P, .inr ⟨lf, fs', nf, fitems, rfl, gf, w1, ?_⟩, .inl (by simp)⟩
        rw [e11]
        exact faces_known fitems rfl q2 q4 q5
    · -- the faces come first
      obtain ⟨fs, fitems, tail, s2, rfl, w1, w2, fr, w3⟩ := faces_inv b2 hcl ⟨rfl, rfl⟩ rfl (by simp)
      rcases w3 with ⟨rfl, rfl⟩ | ⟨lv, nv, vs, rfl, -, gv, B'⟩
      · rw [fr.2.2.2.1] at e2
        simp [PlyHeaderState.init] at e2
      · obtain ⟨vs', items, tail, s3, rfl, v1, v2, fr', v3⟩ := vertices_inv B' (fun l hl => hcl l (by simp at hl ⊢; tauto)) (fr.ready ⟨rfl, rfl⟩)
          rfl (by simp)
        rcases v3 with ⟨rfl, rfl⟩ | ⟨lf, n, fs', rfl, g, -⟩
        swap
        · have := fr.2.2.2.2
          rw [show s2.nFaces = none from g] at this
          cases this
        subst w2
        have k2 := (fold_faces_vertices fitems { { PlyHeaderState.init with plyFound := true, format := some f } with
          readState := .Face, nFaces := some nf }).2 ⟨rfl, rfl, rfl, rfl, rfl, rfl, rfl, rfl, rfl, rfl⟩
        obtain ⟨P, Q⟩ := vertexPart (s' := s') gv v1 v2 k2 p2 ⟨rfl, rfl, rfl, rfl, rfl, rfl, rfl, rfl⟩ fr'.2.2.2.1
        refine ⟨fr'.2.2.1.trans fr.2.2.1, lv :: vs', l :: fs, P, .inr ⟨l, fs, nf, fitems, rfl, gf, w1, ?_⟩, .inr (by simp)⟩
        rw [e11, Q.data]
        exact faces_known fitems (s := { { PlyHeaderState.init with plyFound := true, format := some f } with
          readState := .Face, nFaces := some nf }) rfl rfl rfl rfl
    · cases g
    · cases g

/-- `c111_accepted` applies -/
example : plyLoadHeader (b!"ply\nformat ascii 1.0\ncomment\nelement vertex 3 \nproperty uchar r\nproperty float y\nproperty double x\n" ++
    b!"property float z\nelement face 1\nproperty list uchar int vertex_indices\nend_header\n0 1 2 3\n") =
    some (.ok (⟨.Ascii, ⟨3, .Yxz, .Double, .Float, .Float, ⟨1, 1⟩, ⟨0, 0⟩, ⟨0, 0⟩, ⟨0, 0⟩⟩, some ⟨1, .UChar, .Int, ⟨0, 0⟩, ⟨0, 0⟩⟩⟩, b!"0 1 2 3\n", 11)) := by
  decide +kernel

/-- the line starts with these bytes -/
def Spec.Starts (p l : Bytes) : Prop := ∃ r, l = p ++ r

theorem fetched_text {file rest : Bytes} {ls : List Bytes} (h : Fetched file ls rest) (hr : rest ≠ []) :
    ∃ text, file = text ++ rest ∧ TextOf text ls := by
  induction h with
  | nil => exact ⟨[], rfl, [], rfl, .nil⟩
  | cons h1 h2 h3 h4 ih =>
    rename_i c l s r b ls
    obtain ⟨text, rfl, cs, rfl, hcs⟩ := ih hr
    rcases h2 with rfl | ⟨-, h2⟩
    · exact ⟨nl c ++ cs.flatMap nl, by simp [nl], c :: cs, by simp, .cons ⟨h1, h3⟩ hcs⟩
    · exact absurd (List.append_eq_nil_iff.1 h2).2 hr

theorem faceItem_list {l : Bytes} {i : FaceItem} (h : i.Line l) (hl : ¬Starts b!"property list" l) : ∃ n, i = .other n ∧ FaceOtherLine l n := by
  cases i with
  | other n => exact ⟨n, rfl, h⟩
  | list tc ti => exact absurd h.1 hl
  | ignored => exact absurd h.1 hl

theorem faceItems_others {ls : List Bytes} {items : List FaceItem} (h : List.Forall₂ FaceItem.Line ls items)
    (hl : ∀ l ∈ ls, ¬Starts b!"property list" l) : List.Forall₂ FaceOtherLine ls (otherSizes items) := by
  induction h with
  | nil => exact .nil
  | cons h1 _ ih =>
    obtain ⟨n, rfl, hn⟩ := faceItem_list h1 (hl _ (by simp))
    exact .cons hn (ih fun l hm => hl l (List.mem_cons_of_mem _ hm))

/-- at most one of the lines starts with these bytes -/
def Spec.AtMostOne (p : Bytes) (ls : List Bytes) : Prop := ∀ a l b, ls = a ++ l :: b → Starts p l → ∀ x ∈ a ++ b, ¬Starts p x

/-- **C112** for the files the loader is made for: the vertices are declared in front of the faces, and a face has one list, that
of its vertices. Such a header is one of the form of C61 and C62, with the same faces, and the mesh is the one the data behind it
say. The full statement, for any accepted header, is violated: see below. -/
theorem c112_partial (T : FloatText F64) {file rest : Bytes} {hdr : PlyHeader} {n : Nat} (h : plyLoadHeader file = some (.ok (hdr, rest, n)))
    (hr : rest ≠ []) : ∃ ls text, file = text ++ rest ∧ TextOf text ls ∧ ls.length = n ∧
      ((∀ a l b, ls = a ++ l :: b → Starts b!"element face" l → ∃ v ∈ a, Starts b!"element vertex" v) → AtMostOne b!"property list" ls →
        (hdr.face = none → ∀ l ∈ ls, ¬Starts b!"element face" l) →
        ∃ d, PlyText d ls text ∧ d.Known hdr ∧ (hdr.face.isSome → ∃ ks, PlyData T d d.face n rest ks ∧
          ∀ m, ∃ m' r, loadPlyMesh T file m = some (m', r) ∧ Loaded (.none .InvalidMeshIndices) m ks m' r)) := by
  obtain ⟨ls, h1, h2, pre, v, f, rfl, ⟨lv, vs, vd, rfl, p1, p2, p3, p4, p5, p6, p7, p8, p9, p10, p11⟩, h4, h5⟩ := c111_accepted h
  obtain ⟨text, rfl, ht⟩ := fetched_text h1 hr
  refine ⟨_, text, rfl, ht, h2, fun q1 q2 q3 => ?_⟩
  have mem : ∀ l, l ∈ pre.filter (fun l => !isComment l) → l ∈ pre ++ [b!"end_header"] := fun l hl =>
    List.mem_append_left _ (List.mem_filter.1 hl).1
  have hform : pre.filter (fun l => !isComment l) = b!"ply" :: formatLine hdr.format :: (lv :: vs ++ f) := by
    rcases h5 with h5 | h5
    · exact h5
    · rcases h4 with ⟨rfl, -⟩ | ⟨lf, fs, nf, items, rfl, k1, -⟩
      · simpa using h5
      · exfalso
        rw [show b!"ply" :: formatLine hdr.format :: (lf :: fs ++ lv :: vs) = [b!"ply", formatLine hdr.format] ++ (lf :: (fs ++ lv :: vs)) from rfl,
          List.filter_eq_append_iff] at h5
        obtain ⟨l1, l2, rfl, r1, r2⟩ := h5
        rw [List.filter_eq_cons_iff] at r2
        obtain ⟨m1, m2, rfl, r3, r4, -⟩ := r2
        obtain ⟨w, hw, r, rfl⟩ := q1 (l1 ++ m1) lf (m2 ++ [b!"end_header"]) (by simp) (by obtain ⟨⟨r, e⟩, -⟩ := k1; exact ⟨r, e⟩)
        have hcw : isComment (b!"element vertex" ++ r) = false := by
          simp [isComment, List.isPrefixOf]
        rcases List.mem_append.1 hw with hw | hw
        · have : b!"element vertex" ++ r ∈ [b!"ply", formatLine hdr.format] := by
            rw [← r1, List.mem_filter]; exact ⟨hw, by rw [hcw]; rfl⟩
          simp only [List.mem_cons, List.not_mem_nil, or_false] at this
          rcases this with e | e
          · cases e
          · revert e
            generalize hdr.format = fm
            intro e
            rcases fm with _ | _ | _ <;> cases e
        · exact absurd (r3 _ hw) (by rw [hcw]; simp)
  have one : AtMostOne b!"property list" f := by
    rintro a l b rfl hs x hx hx'
    have e1 : pre.filter (fun l => !isComment l) = (b!"ply" :: formatLine hdr.format :: (lv :: vs ++ a)) ++ l :: b := by
      rw [hform]; simp
    rw [List.filter_eq_append_iff] at e1
    obtain ⟨l1, l2, rfl, r1, r2⟩ := e1
    rw [List.filter_eq_cons_iff] at r2
    obtain ⟨m1, m2, rfl, r3, r4, r5⟩ := r2
    refine q2 (l1 ++ m1) l (m2 ++ [b!"end_header"]) (by simp) hs x ?_ hx'
    rcases List.mem_append.1 hx with hx | hx
    · have : x ∈ l1 := by
        have : x ∈ l1.filter (fun l => !isComment l) := by rw [r1]; simp [hx]
        exact (List.mem_filter.1 this).1
      simp [this]
    · have : x ∈ m2 := by
        have : x ∈ m2.filter (fun l => !isComment l) := by rw [r5]; exact hx
        exact (List.mem_filter.1 this).1
      simp [this]
  obtain ⟨fd, hfd, hkn⟩ : ∃ fd : Option (Nat × FaceDecl), (match fd with
      | none => f = []
      | some (n, fd) => ∃ lf fs', f = lf :: fs' ∧ ElementLine b!"face" lf n ∧ fd.Lines fs') ∧
      hdr.face = fd.map (fun (n, f) => ⟨n, f.tCount, f.tIndex, total f.before, total f.after⟩) := by
    rcases h4 with ⟨rfl, e⟩ | ⟨lf, fs, nf, items, rfl, k1, k2, k3⟩
    · exact ⟨none, rfl, e⟩
    · rcases k3 with ⟨e, -⟩ | ⟨ipre, tc, ti, post, tc', ti', rfl, g1, g2, e⟩
      · refine absurd ?_ (q3 e lf (mem lf (by rw [hform]; simp)))
        obtain ⟨⟨r, e⟩, -⟩ := k1
        exact ⟨r, e⟩
      · obtain ⟨la, lb, rfl, g3, g4⟩ := forall₂_split k2
        cases g4 with
        | cons g5 g6 =>
          rename_i l lb
          have o := one (lf :: la) l lb rfl g5.1
          have oa := faceItems_others g3 fun x hx => o x (by simp [hx])
          have ob := faceItems_others g6 fun x hx => o x (by simp [hx])
          have : tc' = tc ∧ ti' = ti := by
            rcases g2 with ⟨-, e⟩ | ⟨p, q, rfl, -⟩
            · exact e
            · exfalso
              obtain ⟨lp, lq, rfl, -, g7⟩ := forall₂_split g6
              cases g7 with
              | cons g8 _ => exact o _ (by simp) g8.1
          obtain ⟨rfl, rfl⟩ := this
          exact ⟨some (nf, ⟨otherSizes ipre, tc', ti', otherSizes post⟩), ⟨lf, _, rfl, k1, la, l, lb, rfl, oa, g5, ob⟩, e⟩
  have hP : PlyText ⟨hdr.format, hdr.vertex.count, vd, fd⟩ (pre ++ [b!"end_header"]) text := ⟨p2, ⟨pre, lv, vs, f, rfl, hform, p1, p3, hfd⟩, ht⟩
  refine ⟨_, hP, ⟨rfl, rfl, p4, p5, p6, p7, p8, p9, p10, p11, hkn⟩, fun hs => ?_⟩
  obtain ⟨ks, k1, k2, -⟩ := (c62_load T hP rest).2.1 (by rw [hkn, Option.isSome_map] at hs; exact hs)
  rw [h2] at k1
  exact ⟨ks, k1, k2⟩

theorem starts_decide {p l : Bytes} : Starts p l ↔ p.isPrefixOf l = true := startsWith_iff.symm

theorem atMostOne_decide {p : Bytes} {ls : List Bytes} (h : (ls.filter fun l => p.isPrefixOf l).length ≤ 1) : AtMostOne p ls := by
  rintro a l b rfl hl x hx hx'
  rw [List.filter_append, List.filter_cons_of_pos (starts_decide.1 hl), List.length_append, List.length_cons] at h
  rcases List.mem_append.1 hx with hm | hm
  · have := List.length_pos_of_mem (List.mem_filter.2 ⟨hm, starts_decide.1 hx'⟩ : x ∈ List.filter (fun l => p.isPrefixOf l) _)
    omega
  · have := List.length_pos_of_mem (List.mem_filter.2 ⟨hm, starts_decide.1 hx'⟩ : x ∈ List.filter p.isPrefixOf _)
    omega

/-- the conditions of `c112_partial` on the lines are met by the header above -/
example : let ls := [b!"ply", b!"format ascii 1.0", b!"comment", b!"element vertex 3", b!"property uchar r", b!"property float y",
      b!"property double x", b!"property float z", b!"element face 1", b!"property list uchar int vertex_indices", b!"end_header"]
    (∀ a l b, ls = a ++ l :: b → Starts b!"element face" l → ∃ v ∈ a, Starts b!"element vertex" v) ∧ AtMostOne b!"property list" ls := by
  refine ⟨?_, atMostOne_decide (by decide)⟩
  intro a l b h hl
  have key : ∀ i < 11, ∀ l, [b!"ply", b!"format ascii 1.0", b!"comment", b!"element vertex 3", b!"property uchar r", b!"property float y",
      b!"property double x", b!"property float z", b!"element face 1", b!"property list uchar int vertex_indices", b!"end_header"][i]? = some l →
      Starts b!"element face" l → i = 8 := by
    intro i hi l h1 h2
    rw [starts_decide] at h2
    interval_cases i <;> simp at h1 <;> subst h1 <;> first | rfl | (exact absurd h2 (by decide))
  have hlen : a.length < 11 := by
    have := congrArg List.length h
    simp at this
    omega
  have h8 := key a.length hlen l (by rw [h]; simp) hl
  refine ⟨b!"element vertex 3", ?_, b!" 3", rfl⟩
  have h3 : a[3]? = some b!"element vertex 3" := by
    have := congrArg (fun l => l[3]?) h
    rw [List.getElem?_append_left (by omega)] at this
    exact this.symm
  exact List.mem_of_getElem? h3

/-- The declaration of the format asks for the data in the order of the declarations. Faces may be declared first, but then the
vertices are read from the lines of the faces: the triangle (5, 5, 5), (6, 6, 6), (3, 0, 1) is loaded, without any error, as the one
with the corners (3, 0, 1), (5, 5, 5), (6, 6, 6). -/
theorem c112_violated_order : loadPlyMesh natF64 (b!"ply\nformat ascii 1.0\nelement face 1\nproperty list uchar int vertex_indices\n" ++
    b!"element vertex 3\nproperty float x\nproperty float y\nproperty float z\nproperty float w\nend_header\n" ++
    b!"3 0 1 2\n" ++ b!"5 5 5 0\n6 6 6 0\n3 0 1 2\n") ⟨[], []⟩ =
    some (⟨[⟨.fin false 3, .fin false 0, .fin false 1⟩, ⟨.fin false 5, .fin false 5, .fin false 5⟩, ⟨.fin false 6, .fin false 6, .fin false 6⟩],
      [⟨0, 1, 2⟩]⟩, .ok ()) := by
  decide +kernel

/-- A further list of a face is skipped in the header, but not in the data: the face (0, 1, 2) with the list of the flags 2, 1, 0 in front of
it is loaded as the face (2, 1, 0), without any error. -/
theorem c112_violated_list : loadPlyMesh natF64 (b!"ply\nformat binary_little_endian 1.0\nelement vertex 3\nproperty float x\n" ++
    b!"property float y\nproperty float z\nelement face 1\nproperty list uchar uchar flags\nproperty list uchar uchar vertex_indices\nend_header\n" ++
    List.replicate 36 0 ++ [3, 2, 1, 0] ++ [3, 0, 1, 2]) ⟨[], []⟩ =
    some (⟨List.replicate 3 ⟨.fin false 0, .fin false 0, .fin false 0⟩, [⟨2, 1, 0⟩]⟩, .ok ()) := by
  decide +kernel

end R3D
