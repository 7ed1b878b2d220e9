import Verif.Replay.WorldInv

namespace Verif.Replay

theorem Loc.mem_states {w : World} {s : BodyState} (h : Loc w s) {s' : BodyState}
    (hm : s' ∈ w.states) : s' = s := by
  unfold World.states at hm
  rcases List.mem_append.1 hm with hm | hm
  · cases h with
    | shared h hn => rw [h] at hm; simpa using hm
    | owned hs => rw [hs] at hm; simp at hm
  · obtain ⟨h', hh', hst⟩ := List.mem_filterMap.1 hm
    obtain ⟨j, hj⟩ := List.getElem?_of_mem hh'
    cases h with
    | shared _ hn => rw [hn j h' hj] at hst; cases hst
    | owned hs k hk hget ha hst' hn =>
      by_cases e : j = k
      · subst e; rw [hget] at hj; cases hj; rw [hst'] at hst; exact (Option.some.inj hst).symm
      · rw [hn j h' hj e] at hst; cases hst

theorem mem_states_iff {w : World} {s : BodyState} :
    s ∈ w.states ↔ (w.shared = some s ∨ ∃ (j : Nat) (h : Handle), w.handles[j]? = some h ∧ h.state = some s) := by
  unfold World.states
  rw [List.mem_append, Option.mem_toList, List.mem_filterMap]
  constructor
  · rintro (h | ⟨h', hh', hst⟩)
    · exact Or.inl h
    · obtain ⟨j, hj⟩ := List.getElem?_of_mem hh'
      exact Or.inr ⟨j, h', hj, hst⟩
  · rintro (h | ⟨j, h', hj, hst⟩)
    · exact Or.inl h
    · exact Or.inr ⟨h', List.mem_of_getElem? hj, hst⟩

/-- A predicate on states kept by polls is kept by all operations. -/
theorem states_step {P : BodyState → Prop}
    (hP : ∀ rb rt s, P s → P (pollOwned rb rt s).1.2.2) {w : World}
    (h : ∀ s ∈ w.states, P s) (op : Op) : ∀ s ∈ (w.step op).1.states, P s := by
  have setcase : ∀ (i : Nat) (x : Handle) (sh : Option BodyState), (∀ s, x.state = some s → P s) →
      (∀ s, sh = some s → P s) →
      ∀ s ∈ World.states { handles := w.handles.set i x, shared := sh }, P s := by
    intro i x sh hx hsh s hs
    rcases mem_states_iff.1 hs with hs | ⟨j, h', hj, hst⟩
    · exact hsh s hs
    · simp only [List.getElem?_set] at hj
      split at hj
      · split at hj
        · cases hj; exact hx s hst
        · cases hj
      · exact h s (mem_states_iff.2 (Or.inr ⟨j, h', hj, hst⟩))
  have hsh : ∀ s, w.shared = some s → P s := fun s hs => h s (mem_states_iff.2 (Or.inl hs))
  cases op with
  | poll i =>
    simp only [World.step, World.poll]
    split
    · exact h
    · rename_i hk hget
      split
      · exact h
      · split
        · rename_i s0 hst
          apply setcase i _ _ _ hsh
          intro s hs; cases hs
          exact hP _ _ _ (h _ (mem_states_iff.2 (Or.inr ⟨i, hk, hget, hst⟩)))
        · rename_i s0 hst hs0
          apply setcase i _ _ _ (by simp)
          intro s hs; cases hs
          exact hP _ _ _ (hsh _ hs0)
        · exact h
  | clone i =>
    simp only [World.step, World.clone]
    split
    · exact h
    · split
      · exact h
      · intro s hs
        rcases mem_states_iff.1 hs with hs | ⟨j, h', hj, hst⟩
        · exact hsh s hs
        · simp only at hj
          rw [List.getElem?_append] at hj
          split at hj
          · exact h s (mem_states_iff.2 (Or.inr ⟨j, h', hj, hst⟩))
          · have := List.mem_of_getElem? hj
            simp at this; subst this; cases hst
  | drop i =>
    simp only [World.step, World.drop]
    split
    · exact h
    · rename_i hk hget
      split
      · exact h
      · apply setcase i _ _ (by simp)
        intro s hs
        split at hs
        · rename_i s0 hst
          cases hs
          exact h _ (mem_states_iff.2 (Or.inr ⟨i, hk, hget, hst⟩))
        · exact hsh s hs
  | isCapped i =>
    simp only [World.step, World.isCapped]
    split
    · exact h
    · split <;> exact h

theorem states_run {P : BodyState → Prop}
    (hP : ∀ rb rt s, P s → P (pollOwned rb rt s).1.2.2) {w : World}
    (h : ∀ s ∈ w.states, P s) (ops : List Op) : ∀ s ∈ (run w ops).1.states, P s := by
  induction ops generalizing w with
  | nil => exact h
  | cons op ops ih => exact ih (states_step hP h op)

/-- Capped for good: nothing buffered and nothing will be. -/
def Dead (s : BodyState) : Prop := s.maxBytes = 0 ∧ s.replay = []

theorem Dead.poll (rb rt : Bool) (s : BodyState) (h : Dead s) : Dead (pollOwned rb rt s).1.2.2 := by
  obtain ⟨h1, h2⟩ := h
  unfold pollOwned
  split
  · exact ⟨h1, h2⟩
  · split
    · exact ⟨h1, h2⟩
    · split
      · exact ⟨h1, h2⟩
      · split
        · exact ⟨h1, h2⟩
        · split <;> simp [Dead, BodyState.recordBytes, h1, h2]

/-- Clone `i`, if it exists, has not replayed anything. -/
def Unreplayed (i : Nat) (w : World) : Prop :=
  ∀ (h : Handle), w.handles[i]? = some h → h.alive = true → h.replayBody = true

theorem pollOwned_dead (rt : Bool) (s : BodyState) (h : Dead s) :
    pollOwned true rt s = ((true, rt, s), .capped) := by
  obtain ⟨h1, h2⟩ := h
  simp [pollOwned, remaining, h2, BodyState.isCapped, h1]

theorem dead_step {w : World} {i : Nat} (h : ∀ s ∈ w.states, Dead s) (hu : Unreplayed i w) (op : Op) :
    Unreplayed i (w.step op).1 ∧ (op = .poll i → (w.step op).2 = .capped ∨ NoBody (w.step op).2) := by
  have hsh : ∀ s, w.shared = some s → Dead s := fun s hs => h s (mem_states_iff.2 (Or.inl hs))
  cases op with
  | poll j =>
    simp only [World.step, World.poll]
    split
    · exact ⟨hu, fun _ => Or.inr (Or.inr rfl)⟩
    · rename_i hk hget
      split
      · exact ⟨hu, fun _ => Or.inr (Or.inr rfl)⟩
      · rename_i ha
        have ha : hk.alive = true := by simpa using ha
        split
        · rename_i s0 hst
          have hd := h s0 (mem_states_iff.2 (Or.inr ⟨j, hk, hget, hst⟩))
          by_cases e : j = i
          · subst e
            have hrb := hu hk hget ha
            rw [hrb, pollOwned_dead _ _ hd]
            refine ⟨?_, fun _ => Or.inl rfl⟩
            intro h' hj _
            simp only [List.getElem?_set_self (List.getElem?_eq_some_iff.1 hget).1] at hj
            cases hj; rfl
          · refine ⟨?_, fun e' => absurd (Op.poll.inj e') e⟩
            intro h' hj
            simp only [List.getElem?_set_ne e] at hj
            exact hu h' hj
        · rename_i s0 hst hs0
          have hd := hsh s0 hs0
          by_cases e : j = i
          · subst e
            have hrb := hu hk hget ha
            rw [hrb, pollOwned_dead _ _ hd]
            refine ⟨?_, fun _ => Or.inl rfl⟩
            intro h' hj _
            simp only [List.getElem?_set_self (List.getElem?_eq_some_iff.1 hget).1] at hj
            cases hj; rfl
          · refine ⟨?_, fun e' => absurd (Op.poll.inj e') e⟩
            intro h' hj
            simp only [List.getElem?_set_ne e] at hj
            exact hu h' hj
        · exact ⟨hu, fun _ => Or.inr (Or.inl rfl)⟩
  | clone j =>
    refine ⟨?_, by simp⟩
    simp only [World.step, World.clone]
    split
    · exact hu
    · split
      · exact hu
      · intro h' hj ha
        simp only at hj
        rw [List.getElem?_append] at hj
        split at hj
        · exact hu h' hj ha
        · have := List.mem_of_getElem? hj
          simp at this; subst this; rfl
  | drop j =>
    refine ⟨?_, by simp⟩
    simp only [World.step, World.drop]
    split
    · exact hu
    · split
      · exact hu
      · intro h' hj ha
        simp only [List.getElem?_set] at hj
        split at hj
        · split at hj
          · cases hj; cases ha
          · cases hj
        · exact hu h' hj ha
  | isCapped j =>
    refine ⟨?_, by simp⟩
    simp only [World.step, World.isCapped]
    split
    · exact hu
    · split <;> exact hu

theorem dead_run {w : World} {i : Nat} (h : ∀ s ∈ w.states, Dead s) (hu : Unreplayed i w) (ops : List Op) :
    ∀ o, (Op.poll i, o) ∈ (run w ops).2 → o = .capped ∨ NoBody o := by
  induction ops generalizing w with
  | nil => simp [run]
  | cons op ops ih =>
    intro o ho
    obtain ⟨hu', hp⟩ := dead_step h hu op
    simp only [run, List.mem_cons, Prod.mk.injEq] at ho
    rcases ho with ⟨rfl, rfl⟩ | ho
    · exact hp rfl
    · exact ih (states_step Dead.poll h op) hu' o ho

theorem run_append (w : World) (a b : List Op) :
    run w (a ++ b) = ((run (run w a).1 b).1, (run w a).2 ++ (run (run w a).1 b).2) := by
  induction a generalizing w with
  | nil => simp [run]
  | cons op a ih => simp [run, ih]

/-! ### Buffer lemmas -/

theorem advance_flatten (c : Chunks) (n : Nat) (h : n ≤ remaining c) :
    ∃ c', advance c n = some c' ∧ c'.flatten = c.flatten.drop n := by
  induction c generalizing n with
  | nil =>
    simp [remaining] at h; subst h
    exact ⟨[], by simp [advance], rfl⟩
  | cons b bs ih =>
    cases n with
    | zero => exact ⟨b :: bs, by simp [advance], by simp⟩
    | succ n =>
      simp only [advance]
      split
      · rename_i hlt
        refine ⟨_, rfl, ?_⟩
        simp [List.flatten_cons, List.drop_append, Nat.sub_eq_zero_of_le (Nat.le_of_lt hlt)]
      · rename_i hlt
        have hle : n + 1 - b.length ≤ remaining bs := by
          simp [remaining] at h ⊢; omega
        obtain ⟨c', h1, h2⟩ := ih _ hle
        refine ⟨c', h1, ?_⟩
        have hb : b.drop (n + 1) = [] := List.drop_eq_nil_of_le (by omega)
        rw [h2, List.flatten_cons, List.drop_append, hb, List.nil_append]

theorem advance_nonempty (c : Chunks) (n : Nat) (c' : Chunks) (hne : ∀ b ∈ c, b ≠ [])
    (h : advance c n = some c') : ∀ b ∈ c', b ≠ [] := by
  induction c generalizing n with
  | nil => cases n <;> simp [advance] at h; subst h; simp
  | cons b bs ih =>
    cases n with
    | zero => simp [advance] at h; subst h; exact hne
    | succ n =>
      simp only [advance] at h
      split at h
      · rename_i hlt
        cases h
        intro x hx
        rcases List.mem_cons.1 hx with rfl | hx
        · intro h0
          have := congrArg List.length h0
          simp at this; omega
        · exact hne x (by simp [hx])
      · exact ih _ (fun x hx => hne x (by simp [hx])) h

theorem chunk_ne_nil {c : Chunks} (hne : ∀ b ∈ c, b ≠ []) (hr : 0 < remaining c) : chunk c ≠ [] := by
  cases c with
  | nil => simp [remaining] at hr
  | cons b bs => exact hne b (by simp)

theorem chunk_prefix (c : Chunks) : chunk c <+: c.flatten := by
  cases c with
  | nil => simp [chunk]
  | cons b bs => exact ⟨bs.flatten, by simp [chunk]⟩

theorem putLoop_spec (fuel : Nat) (acc : Bytes) (c : Chunks) (len : Nat) (hne : ∀ b ∈ c, b ≠ [])
    (hlen : len ≤ remaining c) (hf : len < fuel) :
    ∃ c', putLoop fuel acc c len = .done (acc ++ c.flatten.take len) c' ∧
      c'.flatten = c.flatten.drop len := by
  induction fuel generalizing acc c len with
  | zero => omega
  | succ fuel ih =>
    simp only [putLoop]
    split
    · rename_i h0
      have : len = 0 := by omega
      subst this
      exact ⟨c, by simp, by simp⟩
    · rename_i h0
      have hpos : 0 < len ∧ 0 < remaining c := by omega
      have hch := chunk_ne_nil hne hpos.2
      have hchpos : 0 < (chunk c).length := List.length_pos_iff.2 hch
      have hsl : ((chunk c).take len).length ≤ len := by simp; omega
      have hslp : 0 < ((chunk c).take len).length := by simp; omega
      obtain ⟨c', h1, h2⟩ := advance_flatten c ((chunk c).take len).length (by omega)
      have hne' := advance_nonempty _ _ _ hne h1
      rw [h1]
      simp only
      have hpre : (chunk c).take len <+: c.flatten.take len := by
        obtain ⟨t, ht⟩ := chunk_prefix c
        rw [← ht]
        rw [List.take_append]
        exact ⟨_, rfl⟩
      have htake : c.flatten.take ((chunk c).take len).length = (chunk c).take len := by
        obtain ⟨t, ht⟩ := hpre
        have hh : (c.flatten.take len).take ((chunk c).take len).length = (chunk c).take len := by
          rw [← ht]; simp
        rw [List.take_take, Nat.min_eq_left hsl] at hh
        exact hh
      have hrem' : len - ((chunk c).take len).length ≤ remaining c' := by
        rw [remaining_eq, h2, List.length_drop, ← remaining_eq]; omega
      obtain ⟨c'', h3, h4⟩ := ih (acc ++ (chunk c).take len) c' (len - ((chunk c).take len).length)
        hne' hrem' (by omega)
      refine ⟨c'', ?_, ?_⟩
      · rw [h3, h2]
        congr 1
        rw [List.append_assoc]
        congr 1
        conv => rhs; rw [← List.take_append_drop ((chunk c).take len).length (c.flatten.take len)]
        rw [List.take_take, Nat.min_eq_left hsl, htake, List.drop_take]
      · rw [h4, h2, List.drop_drop]
        congr 1; omega

end Verif.Replay
