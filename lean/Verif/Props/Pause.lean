import Verif.Props.Device
/-!
C128 for readers that pause: a portion without bytes means that there is no more data at the moment, as at the end of a file that is still being written.
-/
namespace R3D
open Spec

/-- does nothing follow the last line break? -/
def Spec.endsLine (s : Bytes) : Prop := s = [] ∨ ∃ t, s = t ++ [10]

/-- what was fetched and what is left are the data, whatever the portions are -/
theorem devUntil_parts (fails : Bool) : ∀ (ps : List Portion) b qs, devUntil fails ps = (some b, qs) → allBytes ps = b ++ allBytes qs
  | [], b, qs, h => by
    rw [devUntil] at h
    by_cases hf : fails = true
    · rw [if_pos hf] at h; cases h
    · rw [if_neg hf] at h
      simp only [Prod.mk.injEq, Option.some.injEq] at h
      rw [← h.1, ← h.2]
      rfl
  | .interrupted :: ps, b, qs, h => by
    rw [devUntil] at h
    rw [allBytes_int]
    exact devUntil_parts fails ps b qs h
  | .data bs :: ps, b, qs, h => by
    rw [devUntil] at h
    rw [allBytes_data]
    by_cases hb : (10 : UInt8) ∈ bs
    · rw [if_pos hb] at h
      simp only [Prod.mk.injEq, Option.some.injEq] at h
      rw [← h.1, ← h.2, allBytes_putBack]
      obtain ⟨c, -, q2, q3⟩ := readUntilNl_mem hb
      rw [q2]
      conv_lhs => rw [q3]
      simp
    · rw [if_neg hb] at h
      by_cases he : bs = []
      · rw [if_pos he] at h
        simp only [Prod.mk.injEq, Option.some.injEq] at h
        rw [he, ← h.1, ← h.2]
      · rw [if_neg he] at h
        rcases hr : devUntil fails ps with ⟨_ | more, rs⟩
        · rw [hr] at h; cases h
        · rw [hr] at h
          simp only [Option.map_some, Prod.mk.injEq, Option.some.injEq] at h
          rw [devUntil_parts fails ps more rs hr, ← h.1, ← h.2, List.append_assoc]

/-- beyond the number of bytes more fuel changes nothing -/
theorem devLines_fuel : ∀ (f g : Nat) (d : Device), d.content.length ≤ f → d.content.length ≤ g → devLines f d = devLines g d := by
  have aux : ∀ (f : Nat) (d : Device), d.content.length ≤ f → devLines (f + 1) d = devLines f d := by
    intro f
    induction f with
    | zero =>
      intro d h
      rw [devLines, devLines]
      unfold Device.fetchLine
      rcases hu : devUntil d.fails d.portions with ⟨_ | b, ps⟩
      · rfl
      · have := devUntil_parts _ _ _ _ hu
        rw [← content_eq] at this
        have h0 : d.content = [] := by simpa using h
        rw [h0] at this
        have : b = [] := by
          rcases b with _ | _
          · rfl
          · cases this
        subst this
        rfl
    | succ f ih =>
      intro d h
      rw [devLines, devLines]
      rcases hu : d.fetchLine with ⟨_ | l, d'⟩
      · rfl
      · simp only
        rw [ih d']
        unfold Device.fetchLine at hu
        rcases hv : devUntil d.fails d.portions with ⟨_ | b, ps⟩
        · rw [hv] at hu; cases hu
        · rw [hv] at hu
          simp only [Prod.mk.injEq] at hu
          have hp := devUntil_parts _ _ _ _ hv
          rw [← content_eq] at hp
          have hb : b.length ≠ 0 := by
            intro hb
            rw [if_pos hb] at hu
            cases hu.1
          rw [← hu.2]
          show (allBytes ps).length ≤ f
          have := congrArg List.length hp
          rw [List.length_append] at this
          omega
  have up : ∀ (d : Device) (k : Nat), devLines (d.content.length + k) d = devLines d.content.length d := by
    intro d k
    induction k with
    | zero => rfl
    | succ k ih => rw [← Nat.add_assoc, aux _ d (by omega), ih]
  intro f g d hf hg
  obtain ⟨a, rfl⟩ := Nat.exists_eq_add_of_le hf
  obtain ⟨b, rfl⟩ := Nat.exists_eq_add_of_le hg
  rw [up, up]

theorem devUntil_pause (fails : Bool) (post : List Portion) : ∀ (pre : List Portion), Portion.data [] ∉ pre →
    ((10 : UInt8) ∉ allBytes pre → devUntil fails (pre ++ .data [] :: post) = (some (allBytes pre), post)) ∧
    ((10 : UInt8) ∈ allBytes pre → ∃ qs, Portion.data [] ∉ qs ∧ allBytes qs = (readUntilNl (allBytes pre)).2 ∧
      devUntil fails (pre ++ .data [] :: post) = (some (readUntilNl (allBytes pre)).1, qs ++ .data [] :: post))
  | [], _ => by
    refine ⟨fun _ => ?_, fun h => ?_⟩
    · rw [List.nil_append, devUntil]
      simp
      rfl
    · simp [allBytes, Device.content] at h
  | .interrupted :: ps, h => by
    rw [List.cons_append, devUntil, allBytes_int]
    exact devUntil_pause fails post ps (fun hm => h (List.mem_cons_of_mem _ hm))
  | .data bs :: ps, h => by
    simp only [List.mem_cons, Portion.data.injEq, not_or] at h
    rw [List.cons_append, devUntil, allBytes_data]
    obtain ⟨h1, h2⟩ := devUntil_pause fails post ps h.2
    by_cases hb : (10 : UInt8) ∈ bs
    · rw [if_pos hb]
      refine ⟨fun hn => absurd (List.mem_append_left _ hb) hn, fun _ => ?_⟩
      rw [readUntilNl_append_mem hb]
      refine ⟨putBack (readUntilNl bs).2 ps, proper_putBack h.2, allBytes_putBack _ _, ?_⟩
      unfold putBack
      split_ifs <;> rfl
    · rw [if_neg hb, if_neg (fun e => h.1 e.symm), readUntilNl_append hb]
      refine ⟨fun hn => ?_, fun hm => ?_⟩
      · rw [h1 (fun hm => hn (List.mem_append_right _ hm))]
        rfl
      · obtain ⟨qs, e1, e2, e3⟩ := h2 ((List.mem_append.1 hm).resolve_left hb)
        rw [e3]
        exact ⟨qs, e1, e2, rfl⟩

open Classical in
/-- **C128** a reader that pauses: if the data before the pause ends with a line break the loaders stop there for good and what follows is never read. Otherwise the
unfinished line is taken for a whole one (without its last byte, in the place of the line break), and the rest of that line for a line of its own. -/
theorem c128_pause (fails : Bool) (pre post : List Portion) (h : Portion.data [] ∉ pre) :
    (Device.mk (pre ++ .data [] :: post) fails).lines =
      lines (Device.mk pre fails).content ++ if endsLine (Device.mk pre fails).content then [] else (Device.mk post fails).lines := by
  suffices H : ∀ (n : Nat) (pre : List Portion), Portion.data [] ∉ pre → (allBytes pre).length = n →
      ∀ f, (allBytes pre).length + (allBytes post).length ≤ f → devLines f ⟨pre ++ .data [] :: post, fails⟩ =
        lines (allBytes pre) ++ if endsLine (allBytes pre) then [] else devLines (allBytes post).length ⟨post, fails⟩ by
    refine H _ pre h rfl _ ?_
    simp [allBytes, Device.content]
  intro n
  induction n using Nat.strong_induction_on with
  | _ n ih =>
    intro pre h hn f hf
    obtain ⟨h1, h2⟩ := devUntil_pause fails post pre h
    by_cases he : allBytes pre = []
    · have hu := h1 (by rw [he]; simp)
      rw [he] at hu ⊢
      rw [if_pos (.inl rfl)]
      rcases f with _ | f
      · rfl
      · rw [devLines]
        unfold Device.fetchLine
        simp only [hu]
        rfl
    · obtain ⟨f, rfl⟩ : ∃ g, f = g + 1 := ⟨f - 1, by have := List.length_pos_iff.2 he; omega⟩
      rw [devLines]
      unfold Device.fetchLine
      by_cases hm : (10 : UInt8) ∈ allBytes pre
      · obtain ⟨qs, e1, e2, e3⟩ := h2 hm
        simp only [e3]
        obtain ⟨c, q1, q2, q3⟩ := readUntilNl_mem hm
        have hne := readUntilNl_ne he
        rw [if_neg (by simpa using hne)]
        simp only
        have hl : (allBytes qs).length < (allBytes pre).length := by
          rw [e2]
          conv_rhs => rw [q3]
          simp; omega
        rw [ih _ (by omega) qs e1 rfl f (by omega), ← List.cons_append]
        have hln : lines (allBytes pre) = cleanLine (readUntilNl (allBytes pre)).1 :: lines (allBytes qs) := by
          conv_lhs => rw [q3, ← e2]
          rw [q2]
          have := lines_nl c (allBytes qs) q1
          rw [nl, List.append_assoc] at this
          exact this
        rw [hln]
        have hend : endsLine (allBytes pre) ↔ endsLine (allBytes qs) := by
          rw [q3, ← e2]
          constructor
          · rintro (h0 | ⟨t, ht⟩)
            · simp at h0
            · rcases List.eq_nil_or_concat (allBytes qs) with h0 | ⟨u, x, h0⟩
              · exact .inl h0
              · rw [h0, List.concat_eq_append] at ht ⊢
                have := congrArg List.getLast? ht
                rw [← List.cons_append, ← List.append_assoc, List.getLast?_concat, List.getLast?_concat, Option.some.injEq] at this
                exact .inr ⟨u, by rw [this]⟩
          · rintro (h0 | ⟨t, ht⟩)
            · exact .inr ⟨c, by rw [h0]⟩
            · exact .inr ⟨c ++ 10 :: t, by rw [ht]; simp⟩
        simp only [hend]
      · rw [h1 hm]
        simp only
        rw [if_neg (by simpa using he)]
        simp only
        have hend : ¬endsLine (allBytes pre) := by
          rintro (h0 | ⟨t, ht⟩)
          · exact he h0
          · exact hm (by rw [ht]; simp)
        rw [if_neg hend]
        have hln : lines (allBytes pre) = [cleanLine (allBytes pre)] := by
          refine ((lines_fetchLine (allBytes pre)).1 _ [] ?_).trans rfl
          unfold fetchLine
          rw [readUntilNl_not_mem hm, if_neg (by simpa using he)]
        rw [hln, List.singleton_append]
        congr 1
        exact devLines_fuel _ _ ⟨post, fails⟩ (by show (allBytes post).length ≤ f; have := List.length_pos_iff.2 he; omega) le_rfl

/-- the two cases -/
example : (Device.mk [.data b!"1 2 3\n", .data [], .data b!"4 5 6\n"] false).lines = [b!"1 2 3"] ∧
    (Device.mk [.data b!"1 2 3\n4 5", .data [], .data b!" 6\n"] false).lines = [b!"1 2 3", b!"4", b!" 6"] := by decide

end R3D
