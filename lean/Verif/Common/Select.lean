import Verif.Common.List

/-!
# Selecting from a list by an order

`Iterator::reduce` with "keep the first of equals" (`linkerd/http/route/src/lib.rs:103-107`,
`linkerd/tls/route/src/lib.rs`) and `Iterator::max`, which keeps the last of equals.
-/

namespace Verif.Select

variable {α : Type} (cmp : α → α → Ordering)

/-- `matches.reduce(|m0, m1| if m0 >= m1 { m0 } else { m1 })`. -/
def best : List α → Option α
  | [] => none
  | x :: xs => some (xs.foldl (fun a b => if (cmp a b).isGE then a else b) x)

/-- `Iterator::max`: the last of the greatest elements. -/
def maxLast : List α → Option α
  | [] => none
  | x :: xs => some (xs.foldl (fun a b => if cmp a b = .gt then a else b) x)

section
variable [Std.TransCmp cmp]

theorem lt_of_lt_of_le {a b c : α} (h1 : cmp a b = .lt) (h2 : (cmp b c).isLE) : cmp a c = .lt :=
  Std.TransCmp.lt_of_lt_of_isLE h1 h2

theorem lt_of_le_of_lt {a b c : α} (h1 : (cmp a b).isLE) (h2 : cmp b c = .lt) : cmp a c = .lt :=
  Std.TransCmp.lt_of_isLE_of_lt h1 h2

theorem isGE_iff {a b : α} : (cmp a b).isGE ↔ (cmp b a).isLE := by
  rw [Std.OrientedCmp.eq_swap (cmp := cmp) (a := b) (b := a)]
  cases cmp a b <;> simp

theorem gt_iff {a b : α} : cmp a b = .gt ↔ cmp b a = .lt := by
  rw [Std.OrientedCmp.eq_swap (cmp := cmp) (a := b) (b := a)]
  cases cmp a b <;> simp

theorem le_refl (a : α) : (cmp a a).isLE := by
  rw [Std.ReflCmp.compare_self (cmp := cmp)]
  rfl

theorem not_ge {a b : α} (h : ¬ (cmp a b).isGE) : cmp a b = .lt := by
  cases hc : cmp a b <;> simp_all

theorem not_gt {a b : α} (h : ¬ cmp a b = .gt) : (cmp a b).isLE := by
  cases hc : cmp a b <;> simp_all

theorem foldl_best (x : α) (xs : List α) :
    ∃ pre post, x :: xs = pre ++ xs.foldl (fun a b => if (cmp a b).isGE then a else b) x :: post ∧
      (∀ y ∈ pre, cmp y (xs.foldl (fun a b => if (cmp a b).isGE then a else b) x) = .lt) ∧
      (∀ y ∈ post, (cmp y (xs.foldl (fun a b => if (cmp a b).isGE then a else b) x)).isLE) := by
  induction xs using snoc_induction with
  | nil => exact ⟨[], [], rfl, by simp, by simp⟩
  | snoc l b ih =>
    rw [List.foldl_append, List.foldl_cons, List.foldl_nil]
    generalize List.foldl (fun a b => if (cmp a b).isGE then a else b) x l = r at ih
    obtain ⟨pre, post, h1, h2, h3⟩ := ih
    by_cases hc : (cmp r b).isGE
    · rw [if_pos hc]
      refine ⟨pre, post ++ [b], ?_, h2, ?_⟩
      · rw [← List.cons_append, h1]; simp
      · intro y hy
        rcases List.mem_append.1 hy with hy | hy
        · exact h3 y hy
        · simp at hy; subst hy; exact (isGE_iff cmp).1 hc
    · rw [if_neg hc]
      have hlt := not_ge cmp hc
      refine ⟨pre ++ r :: post, [], ?_, ?_, by simp⟩
      · rw [← List.cons_append, h1]
      · intro y hy
        rcases List.mem_append.1 hy with hy | hy
        · exact lt_of_le_of_lt cmp (by rw [h2 y hy]; rfl) hlt
        · rcases List.mem_cons.1 hy with hy | hy
          · subst hy; exact hlt
          · exact lt_of_le_of_lt cmp (h3 y hy) hlt

/-- The selected element is at least every element, and greater than every earlier one. -/
theorem best_some {l : List α} {r : α} (h : best cmp l = some r) :
    ∃ pre post, l = pre ++ r :: post ∧ (∀ y ∈ pre, cmp y r = .lt) ∧ (∀ y ∈ post, (cmp y r).isLE) := by
  cases l with
  | nil => cases h
  | cons x xs =>
    injection h with h
    subst h
    exact foldl_best cmp x xs

theorem best_none {l : List α} : best cmp l = none ↔ l = [] := by
  cases l <;> simp [best]

theorem maxLast_some {l : List α} {r : α} (h : maxLast cmp l = some r) :
    r ∈ l ∧ ∀ y ∈ l, (cmp y r).isLE := by
  cases l with
  | nil => cases h
  | cons x xs =>
    injection h with h
    subst h
    induction xs using snoc_induction with
    | nil => simp [le_refl]
    | snoc l b ih =>
      rw [List.foldl_append, List.foldl_cons, List.foldl_nil]
      generalize List.foldl (fun a b => if cmp a b = .gt then a else b) x l = r at ih
      by_cases hc : cmp r b = .gt
      · rw [if_pos hc]
        refine ⟨by rw [← List.cons_append]; exact List.mem_append_left _ ih.1, ?_⟩
        intro y hy
        rw [← List.cons_append] at hy
        rcases List.mem_append.1 hy with hy | hy
        · exact ih.2 y hy
        · simp at hy; subst hy; rw [(gt_iff cmp).1 hc]; rfl
      · rw [if_neg hc]
        have hle := not_gt cmp hc
        refine ⟨by simp, ?_⟩
        intro y hy
        rw [← List.cons_append] at hy
        rcases List.mem_append.1 hy with hy | hy
        · exact Std.TransCmp.isLE_trans (ih.2 y hy) hle
        · simp at hy; subst hy; exact le_refl cmp y

theorem maxLast_none {l : List α} : maxLast cmp l = none ↔ l = [] := by
  cases l <;> simp [maxLast]

/-- What `best` selects among the images of a list: the first greatest. -/
theorem best_filterMap {β : Type} (f : β → Option α) {l : List β} {r : α}
    (h : best cmp (l.filterMap f) = some r) :
    ∃ (i : Nat) (a : β), l[i]? = some a ∧ f a = some r ∧
      ∀ (i' : Nat) (a' : β) (r' : α), l[i']? = some a' → f a' = some r' →
        (cmp r' r).isLE ∧ (i' < i → cmp r' r = .lt) := by
  obtain ⟨pre, post, h1, h2, h3⟩ := best_some cmp h
  obtain ⟨l1, l2, hl, hpre, hcons⟩ := List.filterMap_eq_append_iff.1 h1
  obtain ⟨l3, a, l4, hl2, hnone, ha, hpost⟩ := List.filterMap_eq_cons_iff.1 hcons
  refine ⟨(l1 ++ l3).length, a, ?_, ha, ?_⟩
  · rw [hl, hl2, ← List.append_assoc, List.getElem?_append_right (Nat.le_refl _)]
    simp
  · intro i' a' r' hi ha'
    rw [hl, hl2, ← List.append_assoc] at hi
    by_cases hlt : i' < (l1 ++ l3).length
    · rw [List.getElem?_append_left hlt] at hi
      have hmem := List.mem_of_getElem? hi
      have : r' ∈ pre := by
        rcases List.mem_append.1 hmem with hm | hm
        · rw [← hpre]; exact List.mem_filterMap.2 ⟨a', hm, ha'⟩
        · rw [hnone a' hm] at ha'; cases ha'
      have := h2 r' this
      exact ⟨by rw [this]; rfl, fun _ => this⟩
    · rw [List.getElem?_append_right (by omega)] at hi
      refine ⟨?_, fun h => absurd h hlt⟩
      rcases List.mem_cons.1 (List.mem_of_getElem? hi) with hm | hm
      · subst hm; rw [ha] at ha'; cases ha'; exact le_refl cmp _
      · exact h3 r' (by rw [← hpost]; exact List.mem_filterMap.2 ⟨a', hm, ha'⟩)

theorem best_filterMap_none {β : Type} (f : β → Option α) {l : List β} :
    best cmp (l.filterMap f) = none ↔ ∀ a ∈ l, f a = none := by
  rw [best_none, List.filterMap_eq_nil_iff]

end

end Verif.Select
