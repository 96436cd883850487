import Verif.Model.DeviceLas
import Verif.Props.DeviceStl
import Verif.Props.Las
/-!
C128 for .las files: readers that can be sent to a position.
-/
namespace R3D
open Scalar Spec

namespace Spec
/-- sent to a position, the reader goes on with the bytes of the file from there -/
def Goes (d : SeekDevice) : Prop := ∀ k, ∃ d', d.seek k = some d' ∧ Proper d' ∧ d'.content = d.read.content.drop k
end Spec

theorem readExact_front (n : Nat) (bs b rest : Bytes) (h : readExact n bs = some (b, rest)) : readExact n b = some (b, []) := by
  unfold readExact at h ⊢
  split at h
  · rename_i hl
    simp only [Option.some.injEq, Prod.mk.injEq] at h
    rw [← h.1, if_pos (by simp [hl])]
    simp
  · cases h

theorem lasLoadHeader_front (bs b rest : Bytes) (h : readExact 375 bs = some (b, rest)) : lasLoadHeader b = lasLoadHeader bs := by
  unfold lasLoadHeader
  rw [readExact_front _ _ _ _ h, h]

theorem lasFetchOne_front (hd : LasHeader) (bs b rest : Bytes) (h : readExact hd.pointRecordLength bs = some (b, rest)) :
    (lasFetchOne hd b).map (·.1) = (lasFetchOne hd bs).map (·.1) ∧ ∀ r, lasFetchOne hd bs = some r → r.2 = rest ∧ ∃ p, r.1 = .ok p := by
  unfold lasFetchOne
  rw [readExact_front _ _ _ _ h, h]
  simp only [Option.bind_eq_bind, Option.pure_def]
  rcases sliceOf b 0 12 with _ | b
  · exact ⟨rfl, by simp⟩
  simp only [Option.bind_some]
  rcases sliceOf b 0 4 with _ | x
  · exact ⟨rfl, by simp⟩
  simp only [Option.bind_some]
  rcases sliceOf b 4 8 with _ | y
  · exact ⟨rfl, by simp⟩
  simp only [Option.bind_some]
  rcases sliceOf b 8 12 with _ | z
  · exact ⟨rfl, by simp⟩
  simp only [Option.bind_some, Option.map_some]
  refine ⟨by trivial, ?_⟩
  intro r hr
  rw [← Option.some.inj hr]
  exact ⟨rfl, _, rfl⟩

/-- the iterators over a reader and over its bytes are at the same place, unless they are done -/
def sameLas (d : SeekDevice) (s : DevLas) (t : LasIter) : Prop :=
  s.isDone = t.isDone ∧ (s.isDone = false → s.header = t.header ∧ s.current = t.current ∧ s.read.seek = d.seek ∧ t.file = d.read.content ∧
    Proper s.read.read ∧ s.read.read.content = t.read)

theorem sameLas_next (d : SeekDevice) (hg : Goes d) (s : DevLas) (t : LasIter) (h : sameLas d s t) :
    (devLasNext s = none ∧ lasNext t = none) ∨ ∃ o s' t', devLasNext s = some (o, s') ∧ lasNext t = some (o, t') ∧ sameLas d s' t' := by
  obtain ⟨hdone, h⟩ := h
  unfold devLasNext lasNext
  rcases hs : s.isDone with _ | _
  · rw [← hdone, hs]
    simp only [Bool.false_eq_true, if_false]
    obtain ⟨h1, h2, h3, h4, h5, h6⟩ := h hs
    rw [← h1]
    rcases hh : s.header with _ | hd
    · simp only
      unfold devLasLoadHeader lasHeader
      rcases readExact_cases s.read.read h5 375 with ⟨e1, d', e2⟩ | ⟨b, d', e1, e2, e3, e4⟩
      · rw [e2]
        have : lasLoadHeader t.read = some (.error .AccessFile) := by
          rw [← h6]; unfold lasLoadHeader; rw [e1]
        rw [this]
        exact .inr ⟨_, _, _, rfl, rfl, rfl, by simp⟩
      · rw [e2]
        simp only
        rw [lasLoadHeader_front _ _ _ e1, h6]
        rcases lasLoadHeader t.read with _ | _ | raw
        · exact .inl ⟨rfl, rfl⟩
        · exact .inr ⟨_, _, _, rfl, rfl, rfl, by simp⟩
        · simp only
          rcases LasHeader.tryFrom raw with _ | hd
          · exact .inr ⟨_, _, _, rfl, rfl, rfl, by simp⟩
          · simp only
            obtain ⟨d'', g1, g2, g3⟩ := hg hd.offsetPointData
            rw [h3, g1]
            exact .inr ⟨_, _, _, rfl, rfl, rfl, fun _ => ⟨rfl, h2, rfl, h4, g2, by rw [g3, h4]⟩⟩
    · simp only
      rw [← h2]
      by_cases hc : s.current < hd.nPointRecords
      · rw [if_pos hc, if_pos hc]
        unfold devLasFetchOne
        rcases readExact_cases s.read.read h5 hd.pointRecordLength with ⟨e1, d', e2⟩ | ⟨b, d', e1, e2, e3, e4⟩
        · rw [e2]
          have : lasFetchOne hd t.read = some (.error .AccessFile, []) := by
            rw [← h6]; unfold lasFetchOne; rw [e1]
          rw [this]
          exact .inr ⟨_, _, _, rfl, rfl, rfl, by simp⟩
        · rw [e2]
          simp only
          obtain ⟨f1, f2⟩ := lasFetchOne_front hd _ _ _ e1
          rw [h6] at f1 f2
          rcases hr : lasFetchOne hd t.read with _ | ⟨r, rest⟩
          · rw [hr] at f1
            rcases hb : lasFetchOne hd b with _ | _
            · exact .inl ⟨rfl, rfl⟩
            · rw [hb] at f1; cases f1
          · obtain ⟨f3, p, f4⟩ := f2 _ hr
            simp only at f3 f4
            subst f4
            rw [hr] at f1
            rcases hb : lasFetchOne hd b with _ | ⟨q, r2⟩
            · rw [hb] at f1; cases f1
            · rw [hb] at f1
              obtain rfl : q = .ok p := Option.some.inj f1
              exact .inr ⟨_, _, _, rfl, rfl, rfl, fun _ => ⟨rfl, rfl, h3, h4, e3, f3.symm⟩⟩
      · rw [if_neg hc, if_neg hc]
        exact .inr ⟨_, _, _, rfl, rfl, rfl, by simp⟩
  · rw [← hdone, hs]
    exact .inr ⟨_, _, _, rfl, rfl, by rw [hs, ← hdone, hs], fun e => by rw [hs] at e; cases e⟩

/-- **C128** `load_las` returns what it returns for the bytes the reader hands over, for any portions, interruptions
and failures: unlike in a text file a failure is never taken for the end of the file -/
theorem c128_las (d : SeekDevice) (hd : Proper d.read) (hg : Goes d) : d.loadLas = loadLas d.read.content := by
  unfold SeekDevice.loadLas loadLas
  exact forEach_sim (sameLas d) (sameLas_next d hg) _ _ _ _ ⟨rfl, fun _ => ⟨rfl, rfl, rfl, rfl, hd, rfl⟩⟩

/-- **C128** a reader that cannot be sent to the points is an error and nothing is pushed -/
theorem c128_las_seek (d : SeekDevice) (hd : Proper d.read) (h : LasHeader) (hh : lasHeader d.read.content = some (.ok h))
    (hs : d.seek h.offsetPointData = none) : d.loadLas = some ([], .error .BinaryData) := by
  unfold SeekDevice.loadLas
  rw [forEach]
  have : ∃ s', devLasNext ⟨d, false, 0, none⟩ = some (some (.error .BinaryData), s') := by
    unfold devLasNext
    simp only [Bool.false_eq_true, if_false]
    unfold devLasLoadHeader
    unfold lasHeader at hh
    rcases readExact_cases d.read hd 375 with ⟨e1, d', e2⟩ | ⟨b, d', e1, e2, e3, e4⟩
    · have : lasLoadHeader d.read.content = some (.error .AccessFile) := by unfold lasLoadHeader; rw [e1]
      rw [this] at hh
      cases hh
    · rw [e2]
      simp only
      rw [lasLoadHeader_front _ _ _ e1]
      rcases hl : lasLoadHeader d.read.content with _ | _ | raw
      · rw [hl] at hh; cases hh
      · rw [hl] at hh; cases hh
      · rw [hl] at hh
        simp only at hh ⊢
        rw [Option.some.inj hh]
        simp only
        rw [hs]
        exact ⟨_, rfl⟩
  obtain ⟨s', e⟩ := this
  rw [e]

/-- a reader of single bytes, interrupted once, which can be sent to positions, for `c128_las` -/
def exampleSeek (file : Bytes) (fails : Bool) : SeekDevice :=
  ⟨⟨.interrupted :: file.map (fun b => .data [b]), fails⟩, fun k => some ⟨(file.drop k).map (fun b => .data [b]), fails⟩⟩

theorem single_bytes (file : Bytes) (fails : Bool) : Proper ⟨file.map (fun b => .data [b]), fails⟩ ∧
    (⟨file.map (fun b => .data [b]), fails⟩ : Device).content = file := by
  constructor
  · unfold Proper; simp
  · unfold Device.content; simp [List.flatMap_map]

example (file : Bytes) (fails : Bool) : Proper (exampleSeek file fails).read ∧ Goes (exampleSeek file fails) ∧
    (exampleSeek file fails).read.content = file := by
  have e : (exampleSeek file fails).read.content = file := (single_bytes file fails).2
  refine ⟨?_, ?_, e⟩
  · unfold Proper exampleSeek; simp
  · intro k
    exact ⟨_, rfl, (single_bytes (file.drop k) fails).1, by rw [e]; exact (single_bytes (file.drop k) fails).2⟩

/-- a file with one of two points before the reader fails -/
example : (exampleSeek (exampleLas 2 0 14 2 0 (exampleRecord ++ exampleRecord.take 5)) true).loadLas =
    some ([⟨F64.ofRat (5/2), F64.ofRat 1, F64.ofRat 8⟩], .error .AccessFile) := by decide +kernel

/-- a header for `c128_las_seek` -/
example : ∃ h, lasHeader (exampleLas 2 0 14 2 0 exampleRecord) = some (.ok h) := by
  have : ((lasHeader (exampleLas 2 0 14 2 0 exampleRecord)).map Except.isOk) = some true := by decide +kernel
  rcases e : lasHeader (exampleLas 2 0 14 2 0 exampleRecord) with _ | _ | h
  · rw [e] at this; cases this
  · rw [e] at this; cases this
  · exact ⟨h, rfl⟩
end R3D
