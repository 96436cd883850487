import Verif.Model.Write
import Verif.Props.ByteCodec
import Mathlib.Tactic.Linarith
/-!
C83: a saver that returns `Ok` has handed over the whole file.
-/
namespace R3D

/-! ### specification -/

/-- Whatever the writer does, the bytes it took are a beginning of the file, and all of it if the saver returned `Ok`. -/
def Spec.Delivers (calls : List WriteCall) (file : Bytes) : Prop :=
  ∀ w : Writer, ∃ pre suf, file = pre ++ suf ∧ (runCalls w calls).1.taken = w.taken ++ pre ∧ ((runCalls w calls).2 = true → suf = [])

/-- A writer that makes progress: it never fails and never takes nothing. -/
def Spec.Progresses (w : Writer) : Prop :=
  ∀ a ∈ w.answers, a = .interrupted ∨ ∃ n, 0 < n ∧ a = .took n

/-- With a writer that makes progress the saver returns `Ok`. -/
def Spec.Succeeds (calls : List WriteCall) : Prop := ∀ w : Writer, Spec.Progresses w → (runCalls w calls).2 = true

/-- What C83 asks of a saver with these calls. -/
def Spec.C83Statement (calls : List WriteCall) (file : Bytes) : Prop := Spec.Delivers calls file ∧ Spec.Succeeds calls

open Spec

/-! ### `write_all` -/

theorem writeAll_spec (as : List WriteAnswer) (taken buf : Bytes) :
    (∃ pre suf, buf = pre ++ suf ∧ (writeAllLoop as taken buf).1.taken = taken ++ pre ∧ ((writeAllLoop as taken buf).2 = true → suf = [])) ∧
    (∃ used, as = used ++ (writeAllLoop as taken buf).1.answers) ∧
    (Progresses ⟨taken, as⟩ → (writeAllLoop as taken buf).2 = true) := by
  induction as generalizing taken buf with
  | nil =>
    cases buf with
    | nil => exact ⟨⟨[], [], rfl, by simp [writeAllLoop], fun _ => rfl⟩, ⟨[], rfl⟩, fun _ => rfl⟩
    | cons b buf => exact ⟨⟨b :: buf, [], by simp, rfl, fun _ => rfl⟩, ⟨[], rfl⟩, fun _ => rfl⟩
  | cons a as ih =>
    cases buf with
    | nil => exact ⟨⟨[], [], rfl, by simp [writeAllLoop], fun _ => rfl⟩, ⟨[], by simp [writeAllLoop]⟩, fun _ => by simp [writeAllLoop]⟩
    | cons b buf =>
      have hp : Progresses ⟨taken, a :: as⟩ → ∀ t, Progresses ⟨t, as⟩ := fun h t x hx => h x (List.mem_cons_of_mem _ hx)
      rcases a with n | _ | _
      · cases n with
        | zero =>
          refine ⟨⟨[], b :: buf, rfl, by simp [writeAllLoop], by simp [writeAllLoop]⟩, ⟨[_], rfl⟩, fun h => ?_⟩
          rcases h (.took 0) (by simp) with h | ⟨n, hn, h⟩
          · cases h
          · cases h; exact absurd hn (by decide)
        | succ n =>
          obtain ⟨⟨pre, suf, h1, h2, h3⟩, ⟨used, h4⟩, h5⟩ := ih (taken ++ (b :: buf).take (n + 1)) ((b :: buf).drop (n + 1))
          simp only [writeAllLoop]
          refine ⟨⟨(b :: buf).take (n + 1) ++ pre, suf, ?_, ?_, h3⟩, ⟨.took (n + 1) :: used, ?_⟩, fun h => h5 (hp h _)⟩
          · rw [List.append_assoc, ← h1, List.take_append_drop]
          · rw [h2, List.append_assoc]
          · rw [List.cons_append, ← h4]
      · obtain ⟨h1, ⟨used, h4⟩, h5⟩ := ih taken (b :: buf)
        simp only [writeAllLoop]
        exact ⟨h1, ⟨.interrupted :: used, by rw [List.cons_append, ← h4]⟩, fun h => h5 (hp h _)⟩
      · refine ⟨⟨[], b :: buf, rfl, by simp [writeAllLoop], by simp [writeAllLoop]⟩, ⟨[_], rfl⟩, fun h => ?_⟩
        rcases h .failed (by simp) with h | ⟨n, -, h⟩ <;> cases h

/-- savers that only use `write_all` -/
theorem calls_all (bss : List Bytes) : C83Statement (bss.map .all) bss.flatten := by
  induction bss with
  | nil => exact ⟨fun w => ⟨[], [], rfl, by simp [runCalls], fun _ => rfl⟩, fun w _ => rfl⟩
  | cons bs bss ih =>
    obtain ⟨ih1, ih2⟩ := ih
    constructor
    · intro w
      obtain ⟨⟨pre, suf, h1, h2, h3⟩, -, -⟩ := writeAll_spec w.answers w.taken bs
      simp only [List.map_cons, runCalls, WriteCall.run, Writer.writeAll]
      rcases hw : writeAllLoop w.answers w.taken bs with ⟨w', r⟩
      rw [hw] at h2 h3
      cases r with
      | false => exact ⟨pre, suf ++ bss.flatten, by simp [h1], h2, by simp⟩
      | true =>
        obtain ⟨pre', suf', k1, k2, k3⟩ := ih1 w'
        refine ⟨bs ++ pre', suf', by simp [k1], ?_, k3⟩
        have : pre = bs := by rw [h1, h3 rfl, List.append_nil]
        dsimp only at h2 ⊢
        rw [k2, h2, this, List.append_assoc]
    · intro w hw'
      obtain ⟨-, ⟨used, h4⟩, h5⟩ := writeAll_spec w.answers w.taken bs
      simp only [List.map_cons, runCalls, WriteCall.run, Writer.writeAll]
      have h5 := h5 hw'
      rcases hw : writeAllLoop w.answers w.taken bs with ⟨w', r⟩
      rw [hw] at h4 h5
      subst h5
      exact ih2 w' fun a ha => hw' a (by rw [h4]; exact List.mem_append_right _ ha)

/-! ### C83 for the text savers -/

/-- **C83** for `save_xyz` and `save_xy` -/
theorem c83_xyz {α : Type} (T : FloatText α) (delimCoord delimPos : Bytes) :
    (∀ pts, C83Statement (xyzCalls T pts delimCoord delimPos) (saveXyz T pts delimCoord delimPos)) ∧
    (∀ pts, C83Statement (xyCalls T pts delimCoord delimPos) (saveXy T pts delimCoord delimPos)) := by
  constructor
  · intro pts
    have := calls_all (pts.map fun p => T.fmt p.x ++ delimCoord ++ T.fmt p.y ++ delimCoord ++ T.fmt p.z ++ delimPos)
    rw [List.map_map] at this
    exact this
  · intro pts
    have := calls_all (pts.map fun p => T.fmt p.x ++ delimCoord ++ T.fmt p.y ++ delimPos)
    rw [List.map_map] at this
    exact this

/-- **C83** for `save_stl_ascii`, of every mesh that can be saved at all (see C64) -/
theorem c83_stl (T : FloatText F64) (m : TMesh StlPoint) (file : Bytes) (h : saveStlAscii T m = some file) :
    ∃ calls, stlCalls T m = some calls ∧ C83Statement calls file := by
  unfold saveStlAscii at h
  unfold stlCalls
  rcases hf : (List.range m.numFaces).mapM (stlFacetText T m) with _ | facets
  · rw [hf] at h; cases h
  · rw [hf] at h
    cases h
    refine ⟨_, rfl, ?_⟩
    have := calls_all (b!"solid STL generated by rust-3d\n" :: facets ++ [b!"endsolid STL generated by rust-3d\n"])
    simpa using this

/-- **C83** for `save_ply_ascii` and `save_ply_ascii_colored` -/
theorem c83_ply_ascii (T : FloatText F64) (m : TMesh PlyPoint) :
    C83Statement (plyAsciiCalls T m) (savePlyAscii T m) ∧
    ∀ colors file, savePlyAsciiColored T m colors = .ok file → ∃ calls, plyAsciiColoredCalls T m colors = .ok calls ∧ C83Statement calls file := by
  constructor
  · have := calls_all (plyHeaderText b!"ascii" b!"float" b!"uchar uint" false m.numVertices m.numFaces :: m.verts.map (plyVertexText T) ++
      m.faces.map plyFaceText)
    unfold plyAsciiCalls savePlyAscii
    rw [List.map_append, List.map_cons, List.map_map, List.map_map, List.flatten_append, List.flatten_cons] at this
    exact this
  · intro colors file h
    unfold savePlyAsciiColored at h
    unfold plyAsciiColoredCalls
    by_cases hc : m.numVertices ≠ colors.length
    · rw [if_pos hc] at h; cases h
    · rw [if_neg hc] at h ⊢
      obtain rfl := Except.ok.inj h
      refine ⟨_, rfl, ?_⟩
      have := calls_all (plyHeaderText b!"ascii" b!"float" b!"uchar uint" true m.numVertices m.numFaces :: (m.verts.zip colors).map (plyColoredText T) ++
        m.faces.map plyFaceText)
      rw [List.map_append, List.map_cons, List.map_map, List.map_map, List.flatten_append, List.flatten_cons] at this
      exact this

/-! ### the binary savers -/

theorem run_rest (taken : Bytes) (cs : List WriteCall) : runCalls ⟨taken, []⟩ cs = (⟨taken ++ cs.flatMap WriteCall.bytes, []⟩, true) := by
  induction cs generalizing taken with
  | nil => simp [runCalls]
  | cons c cs ih =>
    have hc : c.run ⟨taken, []⟩ = (⟨taken ++ c.bytes, []⟩, true) := by
      cases c with
      | all bs => cases bs <;> simp [WriteCall.run, Writer.writeAll, writeAllLoop, WriteCall.bytes]
      | once bs => simp [WriteCall.run, Writer.write, WriteCall.bytes]
    simp only [runCalls, hc, ih, List.flatMap_cons, List.append_assoc]

/-- the bytes of the calls are the file -/
theorem plyBinaryCalls_bytes (m : TMesh PlyPoint) (prec : Precision) : (plyBinaryCalls m prec).flatMap WriteCall.bytes = savePlyBinary m prec := by
  have h1 : ∀ p, (plyVertexCalls prec p).flatMap WriteCall.bytes = plyVertexBytes prec p := by
    intro p
    cases prec <;> simp [plyVertexCalls, plyVertexBytes, WriteCall.bytes]
  have h2 : ∀ f, (plyFaceCalls f).flatMap WriteCall.bytes = plyFaceBytes f := by
    intro f
    simp [plyFaceCalls, plyFaceBytes, WriteCall.bytes]
  unfold plyBinaryCalls savePlyBinary
  rw [List.flatMap_append, List.flatMap_cons, List.flatMap_assoc, List.flatMap_assoc]
  simp only [h1, h2]
  rfl

theorem plyBinaryColoredCalls_bytes (m : TMesh PlyPoint) (prec : Precision) (colors : List Rgb) (file : Bytes) :
    savePlyBinaryColored m prec colors = .ok file ↔ ∃ calls, plyBinaryColoredCalls m prec colors = .ok calls ∧ file = calls.flatMap WriteCall.bytes := by
  have h1 : ∀ x : PlyPoint × Rgb, (plyVertexCalls prec x.1 ++ [WriteCall.once [x.2.r], .once [x.2.g], .once [x.2.b]]).flatMap WriteCall.bytes =
      plyVertexBytes prec x.1 ++ [x.2.r, x.2.g, x.2.b] := by
    intro p
    cases prec <;> simp [plyVertexCalls, plyVertexBytes, WriteCall.bytes]
  have h2 : ∀ f, (plyFaceCalls f).flatMap WriteCall.bytes = plyFaceBytes f := by
    intro f
    simp [plyFaceCalls, plyFaceBytes, WriteCall.bytes]
  unfold savePlyBinaryColored plyBinaryColoredCalls
  by_cases hc : m.numVertices ≠ colors.length
  · simp [if_pos hc]
  · rw [if_neg hc, if_neg hc]
    constructor
    · intro h
      obtain rfl := Except.ok.inj h
      refine ⟨_, rfl, ?_⟩
      rw [List.flatMap_append, List.flatMap_cons, List.flatMap_assoc, List.flatMap_assoc]
      simp only [h1, h2]
      rfl
    · rintro ⟨calls, h, rfl⟩
      obtain rfl := Except.ok.inj h
      rw [List.flatMap_append, List.flatMap_cons, List.flatMap_assoc, List.flatMap_assoc]
      simp only [h1, h2]
      rfl

/-- a writer that never takes less than it is given -/
def Spec.Greedy (w : Writer) (n : Nat) : Prop := ∀ k, .took k ∈ w.answers → n ≤ k

theorem write_once (w : Writer) (bs : Bytes) (n : Nat) (hn : bs.length ≤ n) (hw : Greedy w n) :
    (∃ pre suf, bs = pre ++ suf ∧ (WriteCall.run w (.once bs)).1.taken = w.taken ++ pre ∧ ((WriteCall.run w (.once bs)).2 = true → suf = [])) ∧
    Greedy (WriteCall.run w (.once bs)).1 n := by
  rcases w with ⟨taken, _ | ⟨a, as⟩⟩
  · exact ⟨⟨bs, [], by simp, rfl, fun _ => rfl⟩, hw⟩
  · have hw' : ∀ t, Greedy ⟨t, as⟩ n := fun t k hk => hw k (List.mem_cons_of_mem _ hk)
    rcases a with k | _ | _
    · have hk : bs.take k = bs := List.take_of_length_le (le_trans hn (hw k (by simp)))
      exact ⟨⟨bs, [], by simp, by simp [WriteCall.run, Writer.write, hk], fun _ => rfl⟩, hw' _⟩
    · exact ⟨⟨[], bs, rfl, by simp [WriteCall.run, Writer.write], by simp [WriteCall.run, Writer.write]⟩, hw' _⟩
    · exact ⟨⟨[], bs, rfl, by simp [WriteCall.run, Writer.write], by simp [WriteCall.run, Writer.write]⟩, hw' _⟩

theorem calls_greedy (n : Nat) (cs : List WriteCall) (hcs : ∀ bs, .once bs ∈ cs → bs.length ≤ n) (w : Writer) (hw : Greedy w n) :
    ∃ pre suf, cs.flatMap WriteCall.bytes = pre ++ suf ∧ (runCalls w cs).1.taken = w.taken ++ pre ∧ ((runCalls w cs).2 = true → suf = []) := by
  induction cs generalizing w with
  | nil => exact ⟨[], [], rfl, by simp [runCalls], fun _ => rfl⟩
  | cons c cs ih =>
    have key : (∃ pre suf, c.bytes = pre ++ suf ∧ (c.run w).1.taken = w.taken ++ pre ∧ ((c.run w).2 = true → suf = [])) ∧ Greedy (c.run w).1 n := by
      cases c with
      | once bs => exact write_once w bs n (hcs bs (by simp)) hw
      | all bs =>
        obtain ⟨h1, ⟨used, h2⟩, -⟩ := writeAll_spec w.answers w.taken bs
        exact ⟨h1, fun k hk => hw k (by rw [h2]; exact List.mem_append_right _ hk)⟩
    obtain ⟨⟨pre, suf, h1, h2, h3⟩, hg⟩ := key
    simp only [runCalls]
    rcases hr : c.run w with ⟨w', r⟩
    rw [hr] at h2 h3 hg
    cases r with
    | false => exact ⟨pre, suf ++ cs.flatMap WriteCall.bytes, by simp [h1], h2, by simp⟩
    | true =>
      obtain ⟨pre', suf', k1, k2, k3⟩ := ih (fun bs hbs => hcs bs (List.mem_cons_of_mem _ hbs)) w' hg
      refine ⟨c.bytes ++ pre', suf', by simp [k1], ?_, k3⟩
      have : pre = c.bytes := by rw [h1, h3 rfl, List.append_nil]
      dsimp only at h2 ⊢
      rw [k2, h2, this, List.append_assoc]

theorem vertexCalls_length (prec : Precision) (p : PlyPoint) (bs : Bytes) (h : WriteCall.once bs ∈ plyVertexCalls prec p) : bs.length ≤ 8 := by
  cases prec <;> simp only [plyVertexCalls, List.mem_cons, List.not_mem_nil, or_false, WriteCall.once.injEq] at h <;>
    rcases h with rfl | rfl | rfl <;> exact le_of_eq_of_le (bytesOfNat_length _ _ _) (by decide)

theorem faceCalls_length (f : Face3) (bs : Bytes) (h : WriteCall.once bs ∈ plyFaceCalls f) : bs.length ≤ 8 := by
  simp only [plyFaceCalls, List.mem_cons, List.not_mem_nil, or_false, WriteCall.once.injEq] at h
  rcases h with rfl | rfl | rfl | rfl <;> exact le_of_eq_of_le (bytesOfNat_length _ _ _) (by decide)

/-- C83 for `save_ply_binary` and `save_ply_binary_colored`, what does hold: with writers that take 8 bytes at once. Missing:
`write` may take less, and nobody looks how much it was. -/
theorem c83_ply_binary_partial (m : TMesh PlyPoint) (prec : Precision) (w : Writer) (hw : Greedy w 8) :
    (∃ pre suf, savePlyBinary m prec = pre ++ suf ∧ (runCalls w (plyBinaryCalls m prec)).1.taken = w.taken ++ pre ∧
      ((runCalls w (plyBinaryCalls m prec)).2 = true → suf = [])) ∧
    ∀ colors file, savePlyBinaryColored m prec colors = .ok file → ∃ calls, plyBinaryColoredCalls m prec colors = .ok calls ∧
      ∃ pre suf, file = pre ++ suf ∧ (runCalls w calls).1.taken = w.taken ++ pre ∧ ((runCalls w calls).2 = true → suf = []) := by
  constructor
  · rw [← plyBinaryCalls_bytes]
    refine calls_greedy 8 _ (fun bs h => ?_) w hw
    simp only [plyBinaryCalls, List.cons_append, List.mem_cons, List.mem_append, List.mem_flatMap, reduceCtorEq, false_or] at h
    rcases h with ⟨p, -, h⟩ | ⟨f, -, h⟩
    · exact vertexCalls_length _ _ _ h
    · exact faceCalls_length _ _ h
  · intro colors file h
    obtain ⟨calls, h1, rfl⟩ := (plyBinaryColoredCalls_bytes m prec colors file).1 h
    refine ⟨calls, h1, calls_greedy 8 _ (fun bs h => ?_) w hw⟩
    unfold plyBinaryColoredCalls at h1
    by_cases hc : m.numVertices ≠ colors.length
    · rw [if_pos hc] at h1; cases h1
    · rw [if_neg hc] at h1
      obtain rfl := Except.ok.inj h1
      simp only [List.cons_append, List.mem_cons, List.mem_append, List.mem_flatMap, reduceCtorEq, false_or, List.not_mem_nil, or_false,
        WriteCall.once.injEq] at h
      rcases h with ⟨p, -, h | rfl | rfl | rfl⟩ | ⟨f, -, h⟩
      · exact vertexCalls_length _ _ _ h
      · simp
      · simp
      · simp
      · exact faceCalls_length _ _ h

theorem binaryCalls_start (m : TMesh PlyPoint) (prec : Precision) (hm : m.verts ≠ []) :
    ∃ hdr v rest, hdr ≠ [] ∧ 1 < v.length ∧ plyBinaryCalls m prec = .all hdr :: .once v :: rest := by
  obtain ⟨p, ps, hp⟩ : ∃ p ps, m.verts = p :: ps := List.exists_cons_of_ne_nil hm
  obtain ⟨hdr, hhdr⟩ : ∃ hdr, hdr = plyHeaderText b!"binary_big_endian" (plyCoordWord prec) b!"uint8 uint32" false m.numVertices m.numFaces := ⟨_, rfl⟩
  have h0 : hdr ≠ [] := by
    rw [hhdr]
    unfold plyHeaderText
    simp only [List.append_assoc]
    exact List.cons_ne_nil _ _
  unfold plyBinaryCalls
  rw [hp, ← hhdr]
  cases prec with
  | P32 => exact ⟨hdr, F64.toBytes32 .big p.x, _, h0, lt_of_lt_of_eq (by decide) (bytesOfNat_length _ _ _).symm, rfl⟩
  | P64 => exact ⟨hdr, F64.toBytes64 .big p.x, _, h0, lt_of_lt_of_eq (by decide) (bytesOfNat_length _ _ _).symm, rfl⟩

/-- **C83 is violated** by `save_ply_binary`: for every mesh with a vertex there is a writer that makes progress, with which the
saver returns `Ok`, though not all of the file was taken. -/
theorem c83_violated (m : TMesh PlyPoint) (prec : Precision) (hm : m.verts ≠ []) :
    ∃ w, Progresses w ∧ (runCalls w (plyBinaryCalls m prec)).2 = true ∧
      ((runCalls w (plyBinaryCalls m prec)).1.taken).length < w.taken.length + (savePlyBinary m prec).length := by
  obtain ⟨hdr, v, rest, h0, hv, hc⟩ := binaryCalls_start m prec hm
  obtain ⟨b, hdr', hb⟩ := List.exists_cons_of_ne_nil h0
  have hrun : runCalls ⟨[], [.took hdr.length, .took 1]⟩ (plyBinaryCalls m prec) = (⟨hdr ++ v.take 1 ++ rest.flatMap WriteCall.bytes, []⟩, true) := by
    rw [hc]
    have h1 : WriteCall.run ⟨[], [.took hdr.length, .took 1]⟩ (.all hdr) = (⟨hdr, [.took 1]⟩, true) := by
      rw [hb]
      simp [WriteCall.run, Writer.writeAll, writeAllLoop]
    have h2 : WriteCall.run ⟨hdr, [.took 1]⟩ (.once v) = (⟨hdr ++ v.take 1, []⟩, true) := rfl
    simp only [runCalls, h1, h2, run_rest]
  refine ⟨⟨[], [.took hdr.length, .took 1]⟩, ?_, by rw [hrun], ?_⟩
  · intro a ha
    simp only [List.mem_cons, List.not_mem_nil, or_false] at ha
    rcases ha with rfl | rfl
    · exact .inr ⟨_, by rw [hb]; simp, rfl⟩
    · exact .inr ⟨1, by decide, rfl⟩
  · rw [hrun, ← plyBinaryCalls_bytes, hc]
    simp only [List.flatMap_cons, WriteCall.bytes, List.length_append, List.length_take, List.length_nil]
    omega

/-- and a writer that is merely interrupted makes it fail -/
theorem c83_violated_interrupted (m : TMesh PlyPoint) (prec : Precision) (hm : m.verts ≠ []) :
    ∃ w, Progresses w ∧ (runCalls w (plyBinaryCalls m prec)).2 = false := by
  obtain ⟨hdr, v, rest, h0, hv, hc⟩ := binaryCalls_start m prec hm
  obtain ⟨b, hdr', hb⟩ := List.exists_cons_of_ne_nil h0
  refine ⟨⟨[], [.took hdr.length, .interrupted]⟩, ?_, ?_⟩
  · intro a ha
    simp only [List.mem_cons, List.not_mem_nil, or_false] at ha
    rcases ha with rfl | rfl
    · exact .inr ⟨_, by rw [hb]; simp, rfl⟩
    · exact .inl rfl
  · have h1 : WriteCall.run ⟨[], [.took hdr.length, .interrupted]⟩ (.all hdr) = (⟨hdr, [.interrupted]⟩, true) := by
      rw [hb]
      simp [WriteCall.run, Writer.writeAll, writeAllLoop]
    have h2 : WriteCall.run ⟨hdr, [.interrupted]⟩ (.once v) = (⟨hdr, []⟩, false) := rfl
    rw [hc]
    simp only [runCalls, h1, h2]

/-- a text saver with a writer that takes three bytes at a time, is interrupted and fails in the end -/
example (T : FloatText F64) (hT : T.fmt = fun _ => b!"12") : runCalls ⟨[], [.took 3, .interrupted, .took 3, .failed]⟩
    (xyCalls T [⟨.nan, .nan⟩, ⟨.nan, .nan⟩] b!" " b!"\n") = (⟨b!"12 12\n", []⟩, false) := by
  unfold xyCalls
  rw [hT]
  decide

/-- a mesh with vertices for `c83_violated` and `c83_violated_interrupted`, and with a text for `c83_stl` -/
example : ∃ m : TMesh (Point3D F64), m.verts ≠ [] ∧ ∀ T : FloatText F64, (saveStlAscii T m).isSome :=
  ⟨⟨[⟨.nan, .nan, .nan⟩], []⟩, by simp, fun _ => rfl⟩

end R3D
