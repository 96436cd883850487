import Verif.Model.Sort
namespace R3D
variable {α : Type} {le : α → α → Bool}

theorem sortInsert_perm (a : α) (l : List α) : (sortInsert le a l).Perm (a :: l) := by
  induction l with
  | nil => exact List.Perm.refl _
  | cons b l ih =>
    unfold sortInsert
    split
    · exact List.Perm.refl _
    · exact (List.Perm.cons b ih).trans (List.Perm.swap a b l)

theorem stableSort_perm (l : List α) : (stableSort le l).Perm l := by
  induction l with
  | nil => exact List.Perm.refl _
  | cons a l ih => exact (sortInsert_perm a _).trans (List.Perm.cons a ih)

theorem mem_stableSort {x : α} (l : List α) : x ∈ stableSort le l ↔ x ∈ l :=
  (stableSort_perm l).mem_iff

@[simp] theorem stableSort_length (l : List α) : (stableSort le l).length = l.length :=
  (stableSort_perm l).length_eq

theorem sortInsert_sorted (htrans : ∀ a b c, le a b = true → le b c = true → le a c = true)
    (htotal : ∀ a b, le a b = true ∨ le b a = true) (a : α) (l : List α)
    (h : l.Pairwise (fun x y => le x y = true)) :
    (sortInsert le a l).Pairwise (fun x y => le x y = true) := by
  induction l with
  | nil => simp [sortInsert]
  | cons b l ih =>
    unfold sortInsert
    split
    · rename_i hab
      refine List.pairwise_cons.2 ⟨?_, h⟩
      intro c hc
      rcases List.mem_cons.1 hc with rfl | hc
      · exact hab
      · exact htrans a b c hab ((List.pairwise_cons.1 h).1 c hc)
    · rename_i hab
      have hba : le b a = true := (htotal a b).resolve_left hab
      refine List.pairwise_cons.2 ⟨?_, ih (List.pairwise_cons.1 h).2⟩
      intro c hc
      rcases List.mem_cons.1 ((sortInsert_perm a l).mem_iff.1 hc) with rfl | hc
      · exact hba
      · exact (List.pairwise_cons.1 h).1 c hc

theorem stableSort_sorted (htrans : ∀ a b c, le a b = true → le b c = true → le a c = true)
    (htotal : ∀ a b, le a b = true ∨ le b a = true) (l : List α) :
    (stableSort le l).Pairwise (fun x y => le x y = true) := by
  induction l with
  | nil => simp [stableSort]
  | cons a l ih => exact sortInsert_sorted htrans htotal a _ ih

/-- Stability: elements of one equivalence class keep their order. -/
theorem sortInsert_filter (p : α → Bool) (a : α) (l : List α)
    (hp : ∀ x, p a = true → p x = true → le a x = true) :
    (sortInsert le a l).filter p = (a :: l).filter p := by
  induction l with
  | nil => rfl
  | cons b l ih =>
    unfold sortInsert
    split
    · rfl
    · rename_i hab
      by_cases ha : p a = true
      · have hb : ¬ p b = true := fun hb => hab (hp b ha hb)
        rw [List.filter_cons_of_neg hb, ih, List.filter_cons_of_pos ha, List.filter_cons_of_pos ha,
          List.filter_cons_of_neg hb]
      · rw [List.filter_cons_of_neg ha]
        rw [List.filter_cons_of_neg ha] at ih
        by_cases hb : p b = true
        · rw [List.filter_cons_of_pos hb, List.filter_cons_of_pos hb, ih]
        · rw [List.filter_cons_of_neg hb, List.filter_cons_of_neg hb, ih]

theorem stableSort_filter (p : α → Bool)
    (hp : ∀ a x, p a = true → p x = true → le a x = true) (l : List α) :
    (stableSort le l).filter p = l.filter p := by
  induction l with
  | nil => rfl
  | cons a l ih =>
    unfold stableSort
    rw [sortInsert_filter p a _ (hp a), List.filter_cons, List.filter_cons, ih]

theorem sortInsert_sorted_on {S : α → Prop}
    (htrans : ∀ a b c, S a → S b → S c → le a b = true → le b c = true → le a c = true)
    (htotal : ∀ a b, S a → S b → le a b = true ∨ le b a = true) (a : α) (l : List α) (ha : S a)
    (hl : ∀ x ∈ l, S x) (h : l.Pairwise (fun x y => le x y = true)) :
    (sortInsert le a l).Pairwise (fun x y => le x y = true) := by
  induction l with
  | nil => simp [sortInsert]
  | cons b l ih =>
    have hb : S b := hl b (by simp)
    have hl' : ∀ x ∈ l, S x := fun x hx => hl x (by simp [hx])
    unfold sortInsert
    split
    · rename_i hab
      refine List.pairwise_cons.2 ⟨?_, h⟩
      intro c hc
      rcases List.mem_cons.1 hc with rfl | hc
      · exact hab
      · exact htrans a b c ha hb (hl' c hc) hab ((List.pairwise_cons.1 h).1 c hc)
    · rename_i hab
      have hba : le b a = true := (htotal a b ha hb).resolve_left hab
      refine List.pairwise_cons.2 ⟨?_, ih hl' (List.pairwise_cons.1 h).2⟩
      intro c hc
      rcases List.mem_cons.1 ((sortInsert_perm a l).mem_iff.1 hc) with rfl | hc
      · exact hba
      · exact (List.pairwise_cons.1 h).1 c hc

/-- sortedness when the comparator is a total preorder on the elements of the list only -/
theorem stableSort_sorted_on {S : α → Prop}
    (htrans : ∀ a b c, S a → S b → S c → le a b = true → le b c = true → le a c = true)
    (htotal : ∀ a b, S a → S b → le a b = true ∨ le b a = true) (l : List α) (hl : ∀ x ∈ l, S x) :
    (stableSort le l).Pairwise (fun x y => le x y = true) := by
  induction l with
  | nil => simp [stableSort]
  | cons a l ih =>
    refine sortInsert_sorted_on htrans htotal a _ (hl a (by simp)) ?_ (ih fun x hx => hl x (by simp [hx]))
    intro x hx
    exact hl x (List.mem_cons_of_mem _ ((mem_stableSort l).1 hx))

end R3D
