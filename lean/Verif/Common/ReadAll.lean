/-!
# Reading a list of messages

`iter.map(f).collect::<Result<Vec<_>, _>>()`, with the error left out.
-/

namespace Verif

variable {α β : Type}

/-- All of the items as read, or nothing if one of them cannot be read. -/
def readAll (f : α → Option β) : List α → Option (List β)
  | [] => some []
  | a :: l =>
    match f a with
    | none => none
    | some b =>
      match readAll f l with
      | none => none
      | some r => some (b :: r)

theorem readAll_cons_some {f : α → Option β} {a : α} {l : List α} {r : List β} :
    readAll f (a :: l) = some r ↔ ∃ b r', f a = some b ∧ readAll f l = some r' ∧ r = b :: r' := by
  simp only [readAll]
  cases f a with
  | none => simp
  | some b =>
    cases readAll f l with
    | none => simp
    | some r' =>
      constructor
      · intro h; cases h; exact ⟨b, r', rfl, rfl, rfl⟩
      · rintro ⟨b', r'', h1, h2, h3⟩; cases h1; cases h2; rw [h3]

/-- Item by item. -/
theorem readAll_some {f : α → Option β} {l : List α} {r : List β} :
    readAll f l = some r ↔ r.length = l.length ∧ ∀ (i : Nat) (a : α), l[i]? = some a → ∃ b, r[i]? = some b ∧ f a = some b := by
  induction l generalizing r with
  | nil =>
    constructor
    · intro h; cases h; exact ⟨rfl, by simp⟩
    · rintro ⟨h, -⟩
      have : r = [] := by cases r <;> simp_all
      rw [this]; rfl
  | cons a l ih =>
    rw [readAll_cons_some]
    constructor
    · rintro ⟨b, r', h1, h2, rfl⟩
      obtain ⟨hl, hr⟩ := ih.1 h2
      refine ⟨by simp [hl], ?_⟩
      intro i x hi
      cases i with
      | zero => simp only [List.getElem?_cons_zero, Option.some.injEq] at hi; subst hi; exact ⟨b, rfl, h1⟩
      | succ i => exact hr i x (by simpa using hi)
    · rintro ⟨hl, hr⟩
      cases r with
      | nil => simp at hl
      | cons b r' =>
        obtain ⟨b', hb, hf⟩ := hr 0 a rfl
        simp only [List.getElem?_cons_zero, Option.some.injEq] at hb
        subst hb
        refine ⟨b, r', hf, ih.2 ⟨by simpa using hl, ?_⟩, rfl⟩
        intro i x hi
        exact hr (i + 1) x (by simpa using hi)

theorem readAll_none {f : α → Option β} {l : List α} : readAll f l = none ↔ ∃ a ∈ l, f a = none := by
  induction l with
  | nil => simp [readAll]
  | cons a l ih =>
    simp only [readAll]
    cases hf : f a with
    | none => simp [hf]
    | some b =>
      cases hr : readAll f l with
      | none =>
        obtain ⟨x, hx, hn⟩ := ih.1 hr
        simp only [List.mem_cons, true_iff]
        exact ⟨x, Or.inr hx, hn⟩
      | some r =>
        simp only [reduceCtorEq, List.mem_cons, false_iff]
        rintro ⟨x, rfl | hx, hn⟩
        · rw [hf] at hn; cases hn
        · rw [ih.2 ⟨x, hx, hn⟩] at hr; cases hr

theorem readAll_length {f : α → Option β} {l : List α} {r : List β} (h : readAll f l = some r) : r.length = l.length :=
  (readAll_some.1 h).1

/-- What is read comes from an item. -/
theorem mem_of_readAll {f : α → Option β} {l : List α} {r : List β} (h : readAll f l = some r) {b : β} (hb : b ∈ r) :
    ∃ a ∈ l, f a = some b := by
  obtain ⟨hl, hr⟩ := readAll_some.1 h
  obtain ⟨i, hi, rfl⟩ := List.getElem_of_mem hb
  obtain ⟨b', h1, h2⟩ := hr i (l[i]'(by omega)) (List.getElem?_eq_getElem _)
  rw [List.getElem?_eq_getElem hi] at h1
  cases h1
  exact ⟨_, List.getElem_mem _, h2⟩

/-- Each item is read. -/
theorem readAll_mem {f : α → Option β} {l : List α} {r : List β} (h : readAll f l = some r) {a : α} (ha : a ∈ l) :
    ∃ b ∈ r, f a = some b := by
  obtain ⟨hl, hr⟩ := readAll_some.1 h
  obtain ⟨i, hi, rfl⟩ := List.getElem_of_mem ha
  obtain ⟨b, h1, h2⟩ := hr i _ (List.getElem?_eq_getElem hi)
  exact ⟨b, List.mem_of_getElem? h1, h2⟩

/-- Reading that always succeeds is `map`. -/
theorem readAll_map {f : α → Option β} {g : α → β} {l : List α} (h : ∀ a ∈ l, f a = some (g a)) :
    readAll f l = some (l.map g) := by
  induction l with
  | nil => rfl
  | cons a l ih =>
    rw [readAll_cons_some]
    exact ⟨g a, l.map g, h a (by simp), ih (fun x hx => h x (by simp [hx])), rfl⟩

end Verif
