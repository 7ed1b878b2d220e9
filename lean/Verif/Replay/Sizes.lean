import Verif.Replay.Props

/-!
# C52 and C53: slices of the buffer, and the sizes that are reported
-/
namespace Verif.Replay

/-! ## C52 - slices -/

theorem chunksVectored_zero (c : Chunks) : chunksVectored c 0 = [] := by cases c <;> rfl

/-- The slices of a buffer are, in order, the beginning of its bytes; none is empty; there are at most as many as asked
for; and if there are fewer they are all the bytes there are. -/
theorem C52_slices (c : Chunks) (n : Nat) :
    (chunksVectored c n).flatten <+: c.flatten ∧ (∀ b ∈ chunksVectored c n, b ≠ []) ∧
      (chunksVectored c n).length ≤ n ∧ ((chunksVectored c n).length < n → (chunksVectored c n).flatten = c.flatten) := by
  induction c generalizing n with
  | nil => cases n <;> simp [chunksVectored]
  | cons b bs ih =>
    cases n with
    | zero => simp [chunksVectored]
    | succ n =>
      unfold chunksVectored
      split
      · rename_i hb
        subst hb
        simpa using ih (n + 1)
      · rename_i hb
        obtain ⟨h1, h2, h3, h4⟩ := ih n
        refine ⟨?_, ?_, by simpa using h3, fun h => ?_⟩
        · simpa using List.prefix_append_right_inj b |>.2 h1
        · intro x hx
          rcases List.mem_cons.1 hx with rfl | hx
          · exact hb
          · exact h2 x hx
        · simp only [List.length_cons] at h
          simp [h4 (by omega)]

example : chunksVectored [[1], [], [2, 3], [4]] 2 = [[1], [2, 3]] ∧
    chunksVectored [[1], [], [2, 3], [4]] 5 = [[1], [2, 3], [4]] := by decide

/-! ## C53 - sizes -/

/-- An inner body that reports exactly how many bytes it has left. -/
def Exact (rest : List BodyItem → Nat × Option Nat) : Prop :=
  ∀ r, rest r = ((dataOf r).length, some (dataOf r).length)

/-- Nothing follows the trailers. -/
def TrailersLast (script : List BodyItem) : Prop :=
  ∀ pre t post, script = pre ++ .frame (.trailers t) :: post → dataOf post = []

theorem pollOwned_body (rb rt : Bool) (s : BodyState) : ¬ NoBody (pollOwned rb rt s).2 := by
  unfold pollOwned NoBody
  split
  · simp
  split
  · simp
  split
  · simp
  · dsimp only
    split
    · simp
    · split <;> simp

theorem unread_state (script : List BodyItem) (lower max : Nat) (w : World) (ops : List Op)
    (hw : tryNew script lower max = some w) (i : Nat) (hu : ∀ o, (Op.poll i, o) ∈ (run w ops).2 → NoBody o) (h : Handle)
    (hget : (run w ops).1.handles[i]? = some h) :
    h.state = none ∨ ∃ s, h.state = some s ∧ s.replay = [] ∧ s.rest = script := by
  have key : ∀ (ops : List Op) (w : World),
      (∀ h, w.handles[i]? = some h → h.state = none ∨ ∃ s, h.state = some s ∧ s.replay = [] ∧ s.rest = script) →
      (∀ o, (Op.poll i, o) ∈ (run w ops).2 → NoBody o) →
      ∀ h, (run w ops).1.handles[i]? = some h →
        h.state = none ∨ ∃ s, h.state = some s ∧ s.replay = [] ∧ s.rest = script := by
    intro ops
    induction ops with
    | nil => intro w hp _ h hh; exact hp h hh
    | cons op ops ih =>
      intro w hp hu h hh
      simp only [run] at hu hh
      refine ih (w.step op).1 ?_ (fun o ho => hu o (List.mem_cons_of_mem _ ho)) h hh
      intro h' hh'
      have hset : ∀ (j : Nat) (x : Handle) (hs : List Handle), j ≠ i → (hs.set j x)[i]? = hs[i]? := by
        intro j x hs hji
        simp [List.getElem?_set, hji]
      cases op with
      | poll j =>
        by_cases hji : j = i
        · subst hji
          have hn := hu _ (List.mem_cons_self)
          simp only [World.step, World.poll] at hn hh'
          split at hh'
          · exact hp h' hh'
          · rename_i hk hgk
            simp only [hgk] at hn
            split at hh'
            · exact hp h' hh'
            · rename_i ha
              rw [if_neg ha] at hn
              split at hh'
              · rename_i s0 hst
                exfalso
                simp only [hst] at hn
                exact pollOwned_body _ _ _ hn
              · rename_i s0 hst hsh
                exfalso
                simp only [hst, hsh] at hn
                exact pollOwned_body _ _ _ hn
              · exact hp h' hh'
        · simp only [World.step, World.poll] at hh'
          split at hh'
          · exact hp h' hh'
          · split at hh'
            · exact hp h' hh'
            · split at hh'
              · dsimp only at hh'
                rw [hset _ _ _ hji] at hh'
                exact hp h' hh'
              · dsimp only at hh'
                rw [hset _ _ _ hji] at hh'
                exact hp h' hh'
              · exact hp h' hh'
      | clone j =>
        simp only [World.step, World.clone] at hh'
        split at hh'
        · exact hp h' hh'
        · split at hh'
          · exact hp h' hh'
          · dsimp only at hh'
            rw [List.getElem?_append] at hh'
            split at hh'
            · exact hp h' hh'
            · left
              rw [List.getElem?_singleton] at hh'
              split at hh'
              · cases hh'; rfl
              · cases hh'
      | drop j =>
        simp only [World.step, World.drop] at hh'
        split at hh'
        · exact hp h' hh'
        · split at hh'
          · exact hp h' hh'
          · dsimp only at hh'
            rw [List.getElem?_set] at hh'
            split at hh'
            · split at hh'
              · cases hh'; exact .inl rfl
              · cases hh'
            · exact hp h' hh'
      | isCapped j =>
        simp only [World.step, World.isCapped] at hh'
        split at hh'
        · exact hp h' hh'
        · split at hh' <;> exact hp h' hh'
  refine key ops w ?_ hu h hget
  intro h hh
  unfold tryNew at hw
  split at hw
  · cases hw
  · cases hw
    match i, hh with
    | 0, hh => cases hh; exact .inr ⟨_, rfl, rfl, rfl⟩

/-- Before it is read, the body and each of its clones report the size the original body reported when it was wrapped,
whatever was read through others meanwhile. -/
theorem C53_unread_clone_size (script : List BodyItem) (lower max : Nat) (w : World) (ops : List Op)
    (rest : List BodyItem → Nat × Option Nat) (hw : tryNew script lower max = some w) (i : Nat)
    (hu : ∀ o, (Op.poll i, o) ∈ (run w ops).2 → NoBody o) (h : Handle)
    (hget : (run w ops).1.handles[i]? = some h) : h.sizeHint (rest script) rest = rest script := by
  unfold Handle.sizeHint
  rcases unread_state script lower max w ops hw i hu h hget with hs | ⟨s, hs, h1, h2⟩
  · rw [hs]
  · simp only [hs, h1, h2, remaining]
    rcases hr : rest script with ⟨a, b⟩
    cases b <;> simp

theorem states_rest (script : List BodyItem) (lower max : Nat) (w : World) (ops : List Op)
    (ht : TrailersLast script) (hw : tryNew script lower max = some w) :
    ∀ s ∈ (run w ops).1.states, (∃ pre, script = pre ++ s.rest) ∧ (s.isCompleted = true → dataOf s.rest = []) := by
  refine states_run (P := fun s => (∃ pre, script = pre ++ s.rest) ∧ (s.isCompleted = true → dataOf s.rest = [])) ?_ ?_ ops
  · rintro rb rt s ⟨⟨pre, h1⟩, h2⟩
    unfold pollOwned
    split
    · exact ⟨⟨pre, h1⟩, h2⟩
    split
    · exact ⟨⟨pre, h1⟩, h2⟩
    split
    · exact ⟨⟨pre, h1⟩, h2⟩
    · dsimp only
      split
      · exact ⟨⟨pre, h1⟩, h2⟩
      · rename_i hc
        have next : ∀ {x r}, s.rest = x :: r → ∃ pre, script = pre ++ r := by
          intro x r e
          exact ⟨pre ++ [x], by rw [h1, e]; simp⟩
        split
        · rename_i e; exact ⟨⟨pre, h1⟩, fun _ => by simp [e, dataOf]⟩
        · rename_i e; exact ⟨next e, fun h => absurd h hc⟩
        · rename_i e; exact ⟨next e, fun h => absurd h hc⟩
        · rename_i e
          unfold BodyState.recordBytes
          dsimp only
          split <;> exact ⟨next e, fun h => absurd h hc⟩
        · rename_i t r e; exact ⟨next e, fun _ => ht pre t r (by rw [h1, e])⟩
        · rename_i e; exact ⟨next e, fun h => absurd h hc⟩
  · intro s hs
    unfold tryNew at hw
    split at hw
    · cases hw
    · cases hw
      simp [World.states] at hs
      subst hs
      exact ⟨⟨[], rfl⟩, by simp⟩

/-- While it is read, as long as the limit was not reached, the body reports the size of the whole: what was read is
counted still (replay.rs:295-305). If the limit was reached, what was not yet read is what is reported. (The original
body is taken to report exactly what it has left.) -/
theorem C53_size_while_read (script : List BodyItem) (lower max : Nat) (w : World) (ops : List Op)
    (orig : Nat × Option Nat) (rest : List BodyItem → Nat × Option Nat) (hx : Exact rest) (ht : TrailersLast script)
    (hw : tryNew script lower max = some w) (i : Nat) (h : Handle) (hget : (run w ops).1.handles[i]? = some h)
    (hp : ∃ o, (Op.poll i, o) ∈ (run w ops).2 ∧ ¬ NoBody o) (ha : h.alive = true) :
    (((run w ops).1.isCapped i).2 = .isCapped (some false) →
      h.sizeHint orig rest = ((dataOf script).length, some (dataOf script).length)) ∧
    (((run w ops).1.isCapped i).2 = .isCapped (some true) →
      (i = 0 ∨ (Primed i (run w ops).2 ∧ delivered i (run w ops).2 ≠ [])) →
      ∃ n, n + (delivered i (run w ops).2).length = (dataOf script).length ∧ h.sizeHint orig rest = (n, some n)) := by
  obtain ⟨s, got, hinv⟩ := (Inv.init hw).run ops
  rw [List.nil_append] at hinv
  have hst : h.state = some s := by
    cases hs : h.state with
    | none => exact absurd hp (hinv.fresh i h hget ha hs).2.2.1
    | some s' =>
      have := hinv.loc.mem_states (mem_states_iff.2 (.inr ⟨i, h, hget, hs⟩))
      rw [this]
  have hr := states_rest script lower max w ops ht hw s (mem_states_iff.2 (.inr ⟨i, h, hget, hst⟩))
  have hleft : (dataOf s.rest).length = (left s).length := by
    unfold left
    split
    · rename_i hc; rw [hr.2 hc]
    · rfl
  have htot := congrArg List.length hinv.core.total
  rw [List.length_append] at htot
  have hcap : ((run w ops).1.isCapped i).2 = .isCapped (some s.isCapped) := by
    simp [World.isCapped, hget, ha, hst]
  rw [hcap]
  simp only [Out.isCapped.injEq, Option.some.injEq, BodyState.isCapped, beq_iff_eq, beq_eq_false_iff_ne]
  have hsize : h.sizeHint orig rest = (remaining s.replay + (left s).length, some (remaining s.replay + (left s).length)) := by
    simp [Handle.sizeHint, hst, hx s.rest, hleft]
  rw [hsize, remaining_eq]
  constructor
  · intro hn
    rcases hinv.core.cap with ⟨-, h2, -⟩ | ⟨h1, -⟩
    · rw [h2, htot]
    · exact absurd h1 hn
  · intro h0 hi
    rcases hinv.core.cap with ⟨h1, -⟩ | ⟨-, h2, -⟩
    · exact absurd h0 h1
    · refine ⟨(left s).length, ?_, by simp [h2]⟩
      have hgood : Good script i (run w ops).2 := by
        rcases hi with hi | hi
        · exact .inl hi
        · exact .inr (.inl hi.1)
      rcases hinv.own i h hget hst hgood with ⟨-, hD, -⟩ | ⟨hrb, -, hD, -⟩
      · rw [hD]; omega
      · exfalso
        rcases hi with rfl | hi
        · rw [hinv.zero h hget] at hrb; cases hrb
        · exact hi.2 hD

/-- So while it is read the report is not of what remains: two of three bytes were read, and three are reported. -/
theorem C53_size_hint_overestimates :
    ∃ w, tryNew [.frame (.data [1, 2]), .frame (.data [3])] 0 64 = some w ∧
      ∃ h, (run w [.poll 0]).1.handles[0]? = some h ∧
        h.sizeHint (3, some 3) (fun r => ((dataOf r).length, some (dataOf r).length)) = (3, some 3) ∧
        delivered 0 (run w [.poll 0]).2 = [1, 2] :=
  ⟨_, rfl, _, rfl, by decide, by decide⟩

/-- With a limit of two bytes the rest is what is reported: the second chunk exceeds the limit. -/
example :
    ∃ w, tryNew [.frame (.data [1, 2]), .frame (.data [3]), .frame (.data [4])] 0 2 = some w ∧
      ∃ h, (run w [.poll 0, .poll 0]).1.handles[0]? = some h ∧
        ((run w [.poll 0, .poll 0]).1.isCapped 0).2 = .isCapped (some true) ∧
        h.sizeHint (4, some 4) (fun r => ((dataOf r).length, some (dataOf r).length)) = (1, some 1) :=
  ⟨_, rfl, _, rfl, by decide, by decide⟩

example : TrailersLast [.frame (.data [1, 2]), .frame (.trailers [])] := by
  intro pre t post h
  match pre, h with
  | [], h => simp at h
  | [a], h => simp at h; simp [h, dataOf]
  | a :: b :: pre, h => simp at h

end Verif.Replay
