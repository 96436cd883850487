import Verif.Props.StlAscii
/-!
C63 - C66: .stl files.
-/
namespace R3D
open Spec

/-! ### specification -/

/-- three `f32` in little endian -/
def Spec.StlPoint32 (bs : Bytes) (p : StlPoint) : Prop :=
  ∃ x y z, bs = x ++ y ++ z ∧ x.length = 4 ∧ y.length = 4 ∧ z.length = 4 ∧
    p = ⟨F64.ofBytes32 .little x, F64.ofBytes32 .little y, F64.ofBytes32 .little z⟩

/-- a record of a binary file: the normal, the corners, two more bytes -/
def Spec.StlRecord (rec : Bytes) (f : StlFace StlPoint) : Prop :=
  ∃ n a b c attr, rec = n ++ a ++ b ++ c ++ attr ∧ attr.length = 2 ∧
    StlPoint32 n f.n ∧ StlPoint32 a f.a ∧ StlPoint32 b f.b ∧ StlPoint32 c f.c

/-- What a binary file means: the triangles loaded from it and how loading ends. `s` are the bytes after the first five. -/
def Spec.StlBinary (s : Bytes) (fs : List (StlFace StlPoint)) (r : Except (LineInfo StlError) Unit) : Prop :=
  (s.length < 79 ∧ fs = [] ∧ r = .error (.none .AccessFile)) ∨
  ∃ header count body, s = header ++ count ++ body ∧ header.length = 75 ∧ count.length = 4 ∧
    ((1000000000 < value .little count ∧ fs = [] ∧ r = .error (.none .InvalidFaceCount)) ∨
     (value .little count ≤ 1000000000 ∧ ∃ recs rest, body = List.flatten recs ++ rest ∧ List.Forall₂ StlRecord recs fs ∧
       ((fs.length = value .little count ∧ r = .ok ()) ∨
        (fs.length < value .little count ∧ rest.length < 50 ∧ r = .error (.none .AccessFile)))))

/-- What a file means: the triangles loaded from it and how loading ends. -/
def Spec.StlFile (T : FloatText F64) (s : Bytes) (format : StlFormat) (fs : List (StlFace StlPoint))
    (r : Except (LineInfo StlError) Unit) : Prop :=
  (s.length < 5 ∧ fs = [] ∧ r = .error (.none .AccessFile)) ∨
  ∃ magic rest, s = magic ++ rest ∧ magic.length = 5 ∧
    (((format = .Ascii ∨ format = .Auto ∧ magic = b!"solid") ∧ ∃ head tail, rest = head ++ tail ∧
        ((∃ h, head = h ++ [10] ∧ (10 : UInt8) ∉ h) ∨ ((10 : UInt8) ∉ head ∧ tail = [])) ∧ StlText T 1 (lines tail) fs r) ∨
     ((format = .Binary ∨ format = .Auto ∧ magic ≠ b!"solid") ∧ StlBinary rest fs r))

/-! ### binary files -/

theorem stlPointFromBytes_iff {bs : Bytes} {p : StlPoint} : stlPointFromBytes bs = some (.ok p) ↔ StlPoint32 bs p := by
  constructor
  · intro h
    unfold stlPointFromBytes at h
    by_cases hl : bs.length = 4 * 3
    · have hcs : bs = [bs.take 4, (bs.drop 4).take 4, (bs.drop 8).take 4].flatten := by
        simp only [List.flatten_cons, List.flatten_nil, List.append_nil]
        rw [List.take_of_length_le (i := 4) (l := bs.drop 8) (by simp; omega), show bs.drop 8 = (bs.drop 4).drop 4 by simp,
          List.take_append_drop, List.take_append_drop]
      rw [(c71_array 4 (F64.ofBytes32 .little) 3 bs).1 _ hcs rfl (by simp [hl])] at h
      simp only [List.map, stlPoint, Option.map_some, Option.some.injEq, Except.ok.injEq] at h
      subst h
      refine ⟨_, _, _, by simpa using hcs, by simp [hl], by simp [hl], by simp [hl], rfl⟩
    · rw [(c71_array 4 (F64.ofBytes32 .little) 3 bs).2 hl] at h
      cases h
  · rintro ⟨x, y, z, rfl, hx, hy, hz, rfl⟩
    unfold stlPointFromBytes
    rw [(c71_array 4 (F64.ofBytes32 .little) 3 _).1 [x, y, z] (by simp) rfl (by simp [hx, hy, hz])]
    rfl

theorem stlPoint32_length {bs : Bytes} {p : StlPoint} (h : StlPoint32 bs p) : bs.length = 12 := by
  obtain ⟨x, y, z, rfl, hx, hy, hz, -⟩ := h
  simp [hx, hy, hz]

theorem stlPoint32_exists {bs : Bytes} (h : bs.length = 12) : ∃ p, StlPoint32 bs p :=
  ⟨_, bs.take 4, (bs.drop 4).take 4, bs.drop 8, by
    rw [show bs.drop 8 = (bs.drop 4).drop 4 by simp, List.append_assoc, List.take_append_drop, List.take_append_drop],
    by simp [h], by simp [h], by simp [h], rfl⟩

theorem stlRecord_length {rec : Bytes} {f : StlFace StlPoint} (h : StlRecord rec f) : rec.length = 50 := by
  obtain ⟨n, a, b, c, g, rfl, hg, hn, ha, hb, hc⟩ := h
  simp [stlPoint32_length hn, stlPoint32_length ha, stlPoint32_length hb, stlPoint32_length hc, hg]

theorem stlRecord_exists {rec : Bytes} (h : rec.length = 50) : ∃ f, StlRecord rec f := by
  obtain ⟨n, hn⟩ := stlPoint32_exists (bs := rec.take 12) (by simp [h])
  obtain ⟨a, ha⟩ := stlPoint32_exists (bs := (rec.drop 12).take 12) (by simp [h])
  obtain ⟨b, hb⟩ := stlPoint32_exists (bs := (rec.drop 24).take 12) (by simp [h])
  obtain ⟨c, hc⟩ := stlPoint32_exists (bs := (rec.drop 36).take 12) (by simp [h])
  refine ⟨⟨a, b, c, n⟩, _, _, _, _, rec.drop 48, ?_, by simp [h], hn, ha, hb, hc⟩
  rw [show rec.drop 48 = (rec.drop 36).drop 12 by simp, List.append_assoc, List.take_append_drop,
    show rec.drop 36 = (rec.drop 24).drop 12 by simp, List.append_assoc, List.take_append_drop,
    show rec.drop 24 = (rec.drop 12).drop 12 by simp, List.append_assoc, List.take_append_drop, List.take_append_drop]

theorem readStlTriangle_ok {rec rest : Bytes} {f : StlFace StlPoint} (h : StlRecord rec f) :
    readStlTriangle (rec ++ rest) = some (.ok f, rest) := by
  have hl := stlRecord_length h
  obtain ⟨n, a, b, c, g, rfl, hg, hn, ha, hb, hc⟩ := h
  have ln := stlPoint32_length hn
  have la := stlPoint32_length ha
  have lb := stlPoint32_length hb
  have lc := stlPoint32_length hc
  unfold readStlTriangle
  rw [← hl, readExact_append]
  dsimp only
  have e0 : (n ++ a ++ b ++ c ++ g).take 12 = n := by
    rw [List.append_assoc, List.append_assoc, List.append_assoc, ← ln, List.take_left' rfl]
  have e1 : ((n ++ a ++ b ++ c ++ g).drop 12).take 12 = a := by
    rw [List.append_assoc, List.append_assoc, List.append_assoc, List.drop_left' ln, List.take_left' la]
  have e2 : ((n ++ a ++ b ++ c ++ g).drop 24).take 12 = b := by
    rw [List.append_assoc, List.append_assoc, List.drop_left' (l₁ := n ++ a) (by simp [ln, la]), List.take_left' lb]
  have e3 : ((n ++ a ++ b ++ c ++ g).drop 36).take 12 = c := by
    rw [List.append_assoc, List.drop_left' (l₁ := n ++ a ++ b) (by simp [ln, la, lb]), List.take_left' lc]
  rw [e0, e1, e2, e3, stlPointFromBytes_iff.2 hn, stlPointFromBytes_iff.2 ha, stlPointFromBytes_iff.2 hb, stlPointFromBytes_iff.2 hc]

theorem readStlTriangle_short {s : Bytes} (h : s.length < 50) : readStlTriangle s = some (.error .AccessFile, []) := by
  unfold readStlTriangle
  rw [readExact_none.2 h]

theorem stlBinary_body {recs : List Bytes} {fs : List (StlFace StlPoint)} (h : List.Forall₂ StlRecord recs fs) (rest : Bytes) (n k : Nat)
    (r : Except (LineInfo StlError) Unit)
    (hr : (k + fs.length = n ∧ r = .ok ()) ∨ (k + fs.length < n ∧ rest.length < 50 ∧ r = .error (.none .AccessFile))) :
    Yields stlBinaryNext ⟨recs.flatten ++ rest, false, true, n, k⟩ (fs.map .data) r := by
  induction h generalizing k with
  | nil =>
    rcases hr with ⟨hk, rfl⟩ | ⟨hk, hrest, rfl⟩
    · refine .done (s' := ⟨rest, true, true, n, k⟩) ?_
      have : ¬k < n := by simp at hk; omega
      simp [stlBinaryNext, this]
    · refine .error (s' := ⟨[], true, true, n, k + 1⟩) ?_
      have : k < n := by simpa using hk
      simp [stlBinaryNext, this, readStlTriangle_short hrest]
  | @cons rec f recs fs h hs ih =>
    have hlt : k < n := by
      simp only [List.length_cons] at hr
      omega
    refine .item (s' := ⟨recs.flatten ++ rest, false, true, n, k + 1⟩) ?_ (ih (k + 1) ?_)
    · simp only [stlBinaryNext, List.flatten_cons, List.append_assoc, readStlTriangle_ok h, hlt]
      rfl
    · simp only [List.length_cons] at hr
      rw [show k + 1 + fs.length = k + (fs.length + 1) by omega]
      exact hr

/-- the triangles among the items -/
def stlData : List (StlItem StlPoint) → List (StlFace StlPoint)
  | [] => []
  | .reserve _ :: xs => stlData xs
  | .data f :: xs => f :: stlData xs

theorem stlData_map (fs : List (StlFace StlPoint)) : stlData (fs.map .data) = fs := by
  induction fs with
  | nil => rfl
  | cons f fs ih => simp [stlData, ih]

theorem stlBinary_yields {s : Bytes} {fs : List (StlFace StlPoint)} {r : Except (LineInfo StlError) Unit} (h : StlBinary s fs r) :
    ∃ xs, Yields stlBinaryNext ⟨s, false, false, 0, 0⟩ xs r ∧ stlData xs = fs ∧ xs.length ≤ s.length + 1 := by
  rcases h with ⟨hl, rfl, rfl⟩ | ⟨header, count, body, rfl, hh, hc, h⟩
  · refine ⟨[], ?_, rfl, by simp⟩
    refine .error (s' := ⟨[], true, true, 0, 0⟩) ?_
    rcases he : readExact 75 s with _ | ⟨bs, rest⟩
    · simp [stlBinaryNext, he]
    · obtain ⟨rfl, hb⟩ := readExact_some.1 he
      have : readNat .little 4 rest = none := by
        unfold readNat
        rw [readExact_none.2 (by simp at hl; omega)]
      simp [stlBinaryNext, he, this]
  · have hnext : stlBinaryNext ⟨header ++ count ++ body, false, false, 0, 0⟩ =
        if value .little count > maxTrianglesBinary then some (some (.error (.none .InvalidFaceCount)), ⟨body, true, true, 0, 0⟩)
        else some (some (.ok (.reserve (value .little count))), ⟨body, false, true, value .little count, 0⟩) := by
      have h1 : readExact 75 (header ++ count ++ body) = some (header, count ++ body) := readExact_some.2 ⟨by simp, hh⟩
      have h2 : readNat .little 4 (count ++ body) = some (value .little count, body) := by
        unfold readNat
        rw [readExact_some.2 ⟨rfl, hc⟩]
        dsimp only
        rw [natOfBytes_eq]
      simp only [stlBinaryNext, h1, h2]
      rfl
    rcases h with ⟨hgt, rfl, rfl⟩ | ⟨hle, recs, rest, rfl, hrec, hr⟩
    · refine ⟨[], .error (s' := ⟨body, true, true, 0, 0⟩) ?_, rfl, by simp⟩
      rw [hnext]
      exact if_pos hgt
    · refine ⟨.reserve (value .little count) :: fs.map .data, .item (s' := ⟨recs.flatten ++ rest, false, true, value .little count, 0⟩) ?_
        (stlBinary_body hrec rest _ 0 r (by simpa using hr)), by rw [stlData, stlData_map], ?_⟩
      · rw [hnext, if_neg (by simpa [maxTrianglesBinary] using hle)]
      · have hlen : fs.length ≤ recs.flatten.length := by
          clear hr hnext
          induction hrec with
          | nil => simp
          | cons h _ ih => rw [List.flatten_cons, List.length_append, stlRecord_length h, List.length_cons]; omega
        simp only [List.length_cons, List.length_map, List.length_append]
        omega

theorem stlRecords_exist (n : Nat) (body : Bytes) : ∃ recs fs rest, body = List.flatten recs ++ rest ∧ List.Forall₂ StlRecord recs fs ∧
    (fs.length = n ∨ fs.length < n ∧ rest.length < 50) := by
  induction n generalizing body with
  | zero => exact ⟨[], [], body, rfl, .nil, .inl rfl⟩
  | succ n ih =>
    by_cases h : body.length < 50
    · exact ⟨[], [], body, rfl, .nil, .inr ⟨by simp, h⟩⟩
    · obtain ⟨f, hf⟩ := stlRecord_exists (rec := body.take 50) (by simp; omega)
      obtain ⟨recs, fs, rest, he, hs, hr⟩ := ih (body.drop 50)
      refine ⟨body.take 50 :: recs, f :: fs, rest, ?_, .cons hf hs, ?_⟩
      · rw [List.flatten_cons, List.append_assoc, ← he, List.take_append_drop]
      · simpa using hr

theorem stlBinary_exists (s : Bytes) : ∃ fs r, StlBinary s fs r := by
  by_cases h : s.length < 79
  · exact ⟨_, _, .inl ⟨h, rfl, rfl⟩⟩
  · have hs : s = s.take 75 ++ (s.drop 75).take 4 ++ s.drop 79 := by
      rw [show s.drop 79 = (s.drop 75).drop 4 by simp, List.append_assoc, List.take_append_drop, List.take_append_drop]
    by_cases hc : 1000000000 < value .little ((s.drop 75).take 4)
    · exact ⟨_, _, .inr ⟨_, _, _, hs, by simp; omega, by simp; omega, .inl ⟨hc, rfl, rfl⟩⟩⟩
    · obtain ⟨recs, fs, rest, he, hr, hn⟩ := stlRecords_exist (value .little ((s.drop 75).take 4)) (s.drop 79)
      refine ⟨fs, if fs.length = value .little ((s.drop 75).take 4) then .ok () else .error (.none .AccessFile), .inr ⟨_, _, _, hs,
        by simp; omega, by simp; omega, .inr ⟨by omega, recs, rest, he, hr, ?_⟩⟩⟩
      rcases hn with hn | ⟨hn, hl⟩
      · exact .inl ⟨hn, if_pos hn⟩
      · exact .inr ⟨hn, hl, if_neg (by omega)⟩

/-! ### files -/

theorem readUntilNl_spec (s : Bytes) : ∃ head, s = head ++ (readUntilNl s).2 ∧
    ((∃ h, head = h ++ [10] ∧ (10 : UInt8) ∉ h) ∨ ((10 : UInt8) ∉ head ∧ (readUntilNl s).2 = [])) := by
  induction s with
  | nil => exact ⟨[], rfl, .inr ⟨by simp, rfl⟩⟩
  | cons b s ih =>
    unfold readUntilNl
    split
    · subst_vars; exact ⟨[10], rfl, .inl ⟨[], rfl, by simp⟩⟩
    · rename_i hb
      obtain ⟨head, h1, h2⟩ := ih
      refine ⟨b :: head, by simpa using h1, ?_⟩
      rcases h2 with ⟨h, rfl, hn⟩ | ⟨hn, he⟩
      · exact .inl ⟨b :: h, rfl, by simp [hn, Ne.symm hb]⟩
      · exact .inr ⟨by simp [hn, Ne.symm hb], he⟩

theorem readUntilNl_of {head tail : Bytes} (h : (∃ h, head = h ++ [10] ∧ (10 : UInt8) ∉ h) ∨ ((10 : UInt8) ∉ head ∧ tail = [])) :
    (readUntilNl (head ++ tail)).2 = tail := by
  rcases h with ⟨h, rfl, hn⟩ | ⟨hn, rfl⟩
  · induction h with
    | nil => rfl
    | cons b h ih =>
      simp only [List.mem_cons, not_or] at hn
      simp only [List.cons_append, readUntilNl, if_neg (Ne.symm hn.1)]
      exact ih hn.2
  · simp only [List.append_nil]
    induction head with
    | nil => rfl
    | cons b h ih =>
      simp only [List.mem_cons, not_or] at hn
      simp only [readUntilNl, if_neg (Ne.symm hn.1)]
      exact ih hn.2

theorem rawLines_length (s : Bytes) : (rawLines s).length ≤ s.length := by
  induction s with
  | nil => simp [rawLines]
  | cons b s ih =>
    unfold rawLines
    split
    · simpa using ih
    · split
      · simp
      · rename_i h; rw [h] at ih; simp at ih ⊢; omega

theorem stlText_length {T : FloatText F64} {i : Nat} {ls : List Bytes} {fs : List (StlFace StlPoint)} {r : Except (LineInfo StlError) Unit}
    (h : StlText T i ls fs r) : fs.length ≤ ls.length := by
  induction h with
  | endsolid => simp
  | facet h _ ih => simp [h.1]; omega
  | cut => simp
  | bad => simp

theorem Yields.map {σ τ ε ι : Type} {next : σ → Panics (Option (Except ε ι) × σ)} {next' : τ → Panics (Option (Except ε ι) × τ)} (g : σ → τ)
    (hg : ∀ s, next' (g s) = (next s).map fun r => (r.1, g r.2)) {s : σ} {xs : List ι} {r : Except ε Unit}
    (h : Yields next s xs r) : Yields next' (g s) xs r := by
  induction h with
  | @done s s' h => exact .done (s' := g s') (by rw [hg, h]; rfl)
  | @error s s' e h => exact .error (s' := g s') (by rw [hg, h]; rfl)
  | @item s s' x xs r h hs ih => exact .item (s' := g s') (by rw [hg, h]; rfl) ih

theorem Yields.congr {σ ε ι : Type} {next : σ → Panics (Option (Except ε ι) × σ)} {s s' : σ} {xs : List ι} {r : Except ε Unit}
    (he : next s = next s') (h : Yields next s' xs r) : Yields next s xs r := by
  cases h with
  | done h => exact .done (he.trans h)
  | error h => exact .error (he.trans h)
  | item h hs => exact .item (he.trans h) hs

theorem stlFile_exists (T : FloatText F64) (s : Bytes) (format : StlFormat) : ∃ fs r, StlFile T s format fs r := by
  by_cases h : s.length < 5
  · exact ⟨_, _, .inl ⟨h, rfl, rfl⟩⟩
  · by_cases ha : format = .Ascii ∨ format = .Auto ∧ s.take 5 = b!"solid"
    · obtain ⟨head, h1, h2⟩ := readUntilNl_spec (s.drop 5)
      obtain ⟨fs, r, ht⟩ := stlText_exists T _ (lines (readUntilNl (s.drop 5)).2) le_rfl 1
      exact ⟨fs, r, .inr ⟨s.take 5, s.drop 5, by simp, by simp; omega, .inl ⟨ha, head, _, h1, h2, ht⟩⟩⟩
    · obtain ⟨fs, r, hb⟩ := stlBinary_exists (s.drop 5)
      refine ⟨fs, r, .inr ⟨s.take 5, s.drop 5, by simp, by simp; omega, .inr ⟨?_, hb⟩⟩⟩
      cases format <;> simp_all

/-- all loops over the iterator -/
theorem stlForEach_eq {μ : Type} {T : FloatText F64} {push : μ → StlItem StlPoint → μ} (hpush : ∀ m n, push m (.reserve n) = m)
    {s : Bytes} {format : StlFormat} {fs : List (StlFace StlPoint)} {r : Except (LineInfo StlError) Unit} (h : StlFile T s format fs r) (m : μ) :
    stlForEach T push s format m = some (fs.foldl (fun m f => push m (.data f)) m, r) := by
  have hfold : ∀ (xs : List (StlItem StlPoint)) (m : μ), xs.foldl push m = (stlData xs).foldl (fun m f => push m (.data f)) m := by
    intro xs
    induction xs with
    | nil => intro m; rfl
    | cons x xs ih =>
      intro m
      cases x with
      | reserve n => rw [stlData, List.foldl_cons, hpush, ih]
      | data f => rw [stlData, List.foldl_cons, List.foldl_cons, ih]
  unfold stlForEach
  rcases h with ⟨hl, rfl, rfl⟩ | ⟨magic, rest, rfl, hm, ⟨ha, head, tail, rfl, hline, ht⟩ | ⟨hb, ht⟩⟩
  · rw [stlNew, readExact_none.2 hl]
    rfl
  · have hnew : stlNew (magic ++ (head ++ tail)) format = .ok (.Ascii ⟨head ++ tail, false, false, 0⟩) := by
      rw [stlNew, readExact_some.2 ⟨rfl, hm⟩]
      rcases ha with rfl | ⟨rfl, rfl⟩ <;> rfl
    have hy : Yields (stlAsciiNext T) ⟨head ++ tail, false, false, 0⟩ (fs.map .data) r := by
      have h1 : stlAsciiNext T ⟨head ++ tail, false, false, 0⟩ = stlAsciiNext T ⟨tail, false, true, 1⟩ := by
        show (match readStlFacet T ((readUntilNl (head ++ tail)).2, 0 + 1) with | (.ok f, (read, i)) => _ | (.error e, (read, i)) => _) = _
        rw [readUntilNl_of hline]
        rfl
      exact Yields.congr h1 (stlAscii_body ht tail rfl)
    rw [hnew]
    dsimp only
    rw [forEach_yields (Yields.map (next' := stlNext T) StlIter.Ascii (fun _ => rfl) hy) push _ _ m, hfold, stlData_map]
    have := stlText_length ht
    have h2 := rawLines_length tail
    simp only [lines, List.length_map] at this
    simp only [List.length_map, List.length_append]
    omega
  · have hnew : stlNew (magic ++ rest) format = .ok (.Binary ⟨rest, false, false, 0, 0⟩) := by
      rw [stlNew, readExact_some.2 ⟨rfl, hm⟩]
      rcases hb with rfl | ⟨rfl, hne⟩
      · rfl
      · simp [hne]
    obtain ⟨xs, hy, hd, hl⟩ := stlBinary_yields ht
    rw [hnew]
    dsimp only
    rw [forEach_yields (Yields.map (next' := stlNext T) StlIter.Binary (fun _ => rfl) hy) push _ _ m, hfold, hd]
    simp only [List.length_append]
    omega

/-- the three corners -/
def Spec.corners (f : StlFace StlPoint) : List StlPoint := [f.a, f.b, f.c]

/-- the mesh of separate triangles appended to `m` -/
def Spec.dupedMesh (m : TMesh StlPoint) (fs : List (StlFace StlPoint)) : TMesh StlPoint :=
  ⟨m.verts ++ fs.flatMap corners, m.faces ++ (List.range fs.length).map fun i =>
    ⟨m.verts.length + 3 * i, m.verts.length + 3 * i + 1, m.verts.length + 3 * i + 2⟩⟩

/-- **C63, C64**: the loaders of separate triangles yield the triangles and normals of the file in order, behind what the targets
hold already, and end as the file does. `StlFile` says which these are for every file. -/
theorem c63_loaders (T : FloatText F64) (s : Bytes) (format : StlFormat) :
    (∃ fs r, StlFile T s format fs r) ∧
    ∀ fs r, StlFile T s format fs r →
      (∀ ip ns, loadStlTriplets T s format ip ns = some ((ip ++ fs.flatMap corners, ns ++ fs.map StlFace.n), r)) ∧
      (∀ m ns, loadStlMeshDuped T s format m ns = some ((dupedMesh m fs, ns ++ fs.map StlFace.n), r)) := by
  refine ⟨stlFile_exists T s format, fun fs r h => ⟨fun ip ns => ?_, fun m ns => ?_⟩⟩
  · rw [loadStlTriplets, stlForEach_eq (fun _ _ => rfl) h]
    congr 2
    clear h
    induction fs generalizing ip ns with
    | nil => simp
    | cons f fs ih =>
      rw [List.foldl_cons]
      show List.foldl _ (ip ++ [f.a, f.b, f.c], ns ++ [f.n]) fs = _
      rw [ih]
      simp [corners]
  · rw [loadStlMeshDuped, stlForEach_eq (fun _ _ => rfl) h]
    congr 2
    clear h
    induction fs generalizing m ns with
    | nil => simp [dupedMesh]
    | cons f fs ih =>
      rw [List.foldl_cons]
      show List.foldl _ ((m.addFace f.a f.b f.c).1, ns ++ [f.n]) fs = _
      rw [ih]
      simp only [dupedMesh, TMesh.addFace, List.length_append, List.length_cons, List.length_nil, List.append_assoc, List.map_cons,
        List.flatMap_cons, corners, List.range_succ_eq_map, List.map_map, List.singleton_append, Prod.mk.injEq, TMesh.mk.injEq, and_true, true_and]
      simp only [List.append_cancel_left_eq, List.cons_append, List.nil_append, List.cons.injEq, Nat.mul_zero, Nat.add_zero, true_and]
      refine List.map_congr_left fun i _ => ?_
      simp only [Function.comp, Face3.mk.injEq]
      omega

end R3D
