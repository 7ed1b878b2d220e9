/-!
# Association lists

Hash maps of the code (`AHashMap`, `HashMap`, `IndexMap`) are modelled as lists of key/value pairs.
Nothing in this file models code of its own.
-/

namespace Verif.Assoc

variable {κ α : Type} [DecidableEq κ]

/-- `map.get(&k)`. -/
def lookup (k : κ) : List (κ × α) → Option α
  | [] => none
  | (k', v) :: l => if k' = k then some v else lookup k l

/-- `map.remove(&k)` (the remaining map). -/
def erase (k : κ) (l : List (κ × α)) : List (κ × α) := l.filter (fun e => e.1 ≠ k)

/-- `map.insert(k, v)` for a map whose iteration order is not observed. -/
def insert (k : κ) (v : α) (l : List (κ × α)) : List (κ × α) := (k, v) :: erase k l

/-- `IndexMap::insert(k, v)`: an existing key keeps its place, a new one goes to the end. -/
def put (k : κ) (v : α) : List (κ × α) → List (κ × α)
  | [] => [(k, v)]
  | (k', v') :: l => if k' = k then (k, v) :: l else (k', v') :: put k v l

/-- Every key appears once. -/
def Distinct (l : List (κ × α)) : Prop := (l.map Prod.fst).Nodup

theorem lookup_erase (k j : κ) (l : List (κ × α)) :
    lookup j (erase k l) = if j = k then none else lookup j l := by
  induction l with
  | nil => simp [erase, lookup]
  | cons e l ih =>
    obtain ⟨k', v⟩ := e
    simp only [erase] at ih ⊢
    rw [List.filter_cons]
    by_cases h : k' = k
    · subst h
      rw [if_neg (by simp), ih, lookup]
      grind
    · rw [if_pos (by simpa using h), lookup, lookup, ih]
      grind

theorem lookup_insert (k j : κ) (v : α) (l : List (κ × α)) :
    lookup j (insert k v l) = if j = k then some v else lookup j l := by
  simp only [insert, lookup, lookup_erase]
  grind

theorem lookup_put (k j : κ) (v : α) (l : List (κ × α)) :
    lookup j (put k v l) = if j = k then some v else lookup j l := by
  induction l with
  | nil => simp only [put, lookup]; grind
  | cons e l ih =>
    obtain ⟨k', v'⟩ := e
    simp only [put]
    by_cases h : k' = k <;> simp [lookup, h, ih] <;> grind

theorem mem_of_lookup {k : κ} {v : α} {l : List (κ × α)} (h : lookup k l = some v) : (k, v) ∈ l := by
  induction l with
  | nil => simp [lookup] at h
  | cons e l ih =>
    obtain ⟨k', v'⟩ := e
    simp only [lookup] at h
    split at h
    · simp_all
    · simp [ih h]

theorem lookup_of_mem {k : κ} {v : α} {l : List (κ × α)} (hd : Distinct l) (h : (k, v) ∈ l) : lookup k l = some v := by
  induction l with
  | nil => simp at h
  | cons e l ih =>
    obtain ⟨k', v'⟩ := e
    simp only [Distinct, List.map_cons, List.nodup_cons] at hd
    simp only [lookup]
    rcases List.mem_cons.1 h with h | h
    · simp_all
    · have : k' ≠ k := fun e => hd.1 (by rw [e]; exact List.mem_map.2 ⟨_, h, rfl⟩)
      rw [if_neg this]; exact ih hd.2 h

theorem lookup_none_iff {k : κ} {l : List (κ × α)} : lookup k l = none ↔ k ∉ l.map Prod.fst := by
  induction l with
  | nil => simp [lookup]
  | cons e l ih =>
    obtain ⟨k', v'⟩ := e
    simp only [lookup]
    split <;> grind

theorem mem_erase {k : κ} {e : κ × α} {l : List (κ × α)} : e ∈ erase k l ↔ e ∈ l ∧ e.1 ≠ k := by
  simp [erase]

theorem distinct_erase {k : κ} {l : List (κ × α)} (h : Distinct l) : Distinct (erase k l) := by
  unfold Distinct erase at *
  exact h.sublist (List.filter_sublist.map _)

theorem distinct_insert {k : κ} {v : α} {l : List (κ × α)} (h : Distinct l) : Distinct (insert k v l) := by
  have h1 := distinct_erase (k := k) h
  unfold Distinct insert at *
  rw [List.map_cons, List.nodup_cons]
  refine ⟨?_, h1⟩
  simp [erase]

theorem mem_put {k : κ} {v : α} {e : κ × α} {l : List (κ × α)} (h : e ∈ put k v l) : e = (k, v) ∨ (e ∈ l) := by
  induction l with
  | nil => simp_all [put]
  | cons x l ih =>
    obtain ⟨k', v'⟩ := x
    simp only [put] at h
    split at h <;> grind

theorem keys_put {k : κ} {v : α} {l : List (κ × α)} (j : κ) :
    j ∈ (put k v l).map Prod.fst ↔ j = k ∨ j ∈ l.map Prod.fst := by
  induction l with
  | nil => simp [put]
  | cons x l ih =>
    obtain ⟨k', v'⟩ := x
    simp only [put]
    split <;> grind

theorem distinct_put {k : κ} {v : α} {l : List (κ × α)} (h : Distinct l) : Distinct (put k v l) := by
  induction l with
  | nil => simp [put, Distinct]
  | cons x l ih =>
    obtain ⟨k', v'⟩ := x
    simp only [Distinct, List.map_cons, List.nodup_cons] at h
    simp only [put]
    split
    · rename_i e; subst e; simpa [Distinct] using h
    · simp only [Distinct, List.map_cons, List.nodup_cons]
      exact ⟨by rw [keys_put]; grind, ih h.2⟩

theorem length_put_le {k : κ} {v : α} {l : List (κ × α)} : l.length ≤ (put k v l).length := by
  induction l with
  | nil => simp [put]
  | cons x l ih =>
    obtain ⟨k', v'⟩ := x
    simp only [put]
    split <;> simp [ih]

/-- `put` never moves an entry: the key at an existing index stays. -/
theorem put_key {k : κ} {v : α} {l : List (κ × α)} {i : Nat} {e : κ × α} (h : l[i]? = some e) :
    ∃ e', (put k v l)[i]? = some e' ∧ e'.1 = e.1 ∧ (e' = e ∨ e' = (k, v)) := by
  induction l generalizing i with
  | nil => simp at h
  | cons x l ih =>
    obtain ⟨k', v'⟩ := x
    simp only [put]
    cases i with
    | zero => simp only [List.getElem?_cons_zero, Option.some.injEq] at h; subst h; split <;> simp_all
    | succ i =>
      simp only [List.getElem?_cons_succ] at h
      split
      · exact ⟨e, by simpa using h, rfl, .inl rfl⟩
      · simp only [List.getElem?_cons_succ]; exact ih h

theorem lookup_iff {k : κ} {v : α} {l : List (κ × α)} (hd : Distinct l) : lookup k l = some v ↔ (k, v) ∈ l :=
  ⟨mem_of_lookup, lookup_of_mem hd⟩

theorem mem_insert {k : κ} {v : α} {e : κ × α} {l : List (κ × α)} :
    e ∈ insert k v l ↔ e = (k, v) ∨ (e ∈ l ∧ e.1 ≠ k) := by
  simp [insert, mem_erase]

theorem mem_put_iff {k : κ} {v : α} {e : κ × α} {l : List (κ × α)} (hd : Distinct l) :
    e ∈ put k v l ↔ e = (k, v) ∨ (e ∈ l ∧ e.1 ≠ k) := by
  obtain ⟨j, u⟩ := e
  rw [← lookup_iff (distinct_put hd), lookup_put, ← lookup_iff hd]
  grind

theorem unique_of_distinct {k : κ} {v v' : α} {l : List (κ × α)} (hd : Distinct l) (h : (k, v) ∈ l) (h' : (k, v') ∈ l) : v = v' := by
  rw [← lookup_iff hd] at h h'
  grind

theorem erase_of_lookup_none {k : κ} {l : List (κ × α)} (h : lookup k l = none) : erase k l = l := by
  rw [lookup_none_iff] at h
  unfold erase
  rw [List.filter_eq_self]
  intro e he
  simp; intro he'; exact h (List.mem_map.2 ⟨e, he, he'⟩)

theorem length_erase {k : κ} {v : α} {l : List (κ × α)} (hd : Distinct l) (h : (k, v) ∈ l) : (erase k l).length + 1 = l.length := by
  induction l with
  | nil => simp at h
  | cons e l ih =>
    simp only [Distinct, List.map_cons, List.nodup_cons] at hd
    rcases List.mem_cons.1 h with rfl | h
    · have : erase k l = l := erase_of_lookup_none (lookup_none_iff.2 hd.1)
      simp only [erase] at this ⊢
      rw [List.filter_cons, if_neg (by simp), this]; rfl
    · have hne : e.1 ≠ k := fun he => hd.1 (by rw [he]; exact List.mem_map.2 ⟨_, h, rfl⟩)
      have := ih hd.2 h
      simp only [erase] at this ⊢
      rw [List.filter_cons, if_pos (by simpa using hne)]
      simp only [List.length_cons]; omega

theorem lookup_append (k : κ) (l l' : List (κ × α)) : lookup k (l ++ l') = (lookup k l).or (lookup k l') := by
  induction l with
  | nil => simp [lookup]
  | cons e l ih =>
    obtain ⟨j, v⟩ := e
    simp only [List.cons_append, lookup]
    split <;> simp [ih]

end Verif.Assoc
