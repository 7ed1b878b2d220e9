import Verif.Arrival.Props

/-!
# C115: every inbound request that is let in leaves the queue
-/

namespace Verif.Arrival

variable (c : Config)

/-! ### Specification -/

/-- A stretch of time: the worker has a turn, anything happens, and the worker has another turn. -/
structure Stretch where
  e : Env
  e' : Env
  mid : List Op
  f : Env
  f' : Env

def Stretch.ops (s : Stretch) : List Op := .work s.e s.e' :: s.mid ++ [.work s.f s.f']

/-! ### Proofs -/

theorem trace_append (a b : List Op) : ∃ x, trace c (a ++ b) = trace c a ++ x := by
  induction b using snoc_induction with
  | nil => exact ⟨[], by simp⟩
  | snoc b o ih =>
    obtain ⟨x, hx⟩ := ih
    exact ⟨x ++ [out c (a ++ b) o], by rw [← List.append_assoc, trace_snoc, hx, List.append_assoc]⟩

theorem work_held {w : World} {e e' : Env} {r : Nat} (h : (w.work c e e').2 = .held r) : ∃ rest, w.backlog = r :: rest := by
  unfold World.work at h
  split at h
  · cases h
  · rename_i r' rest hb
    split at h
    · cases h
    · split at h
      · cases h
      · have : r' = r := by
          unfold World.serve at h
          dsimp only at h
          split at h
          · split at h <;> cases h
          · cases h
          · injection h
        exact ⟨rest, by rw [hb, this]⟩

/-- What a turn of the worker may come to. -/
theorem work_cases (ops : List Op) (e e' : Env) :
    (∃ r, (out c ops (.work e e')).left = some r) ∨ (∃ r rest, out c ops (.work e e') = .held r ∧ (after c ops).backlog = r :: rest) ∨
      (after c ops).backlog = [] := by
  have hp := C115_never_panics c ops (.work e e')
  cases ho : out c ops (.work e e') with
  | answered r f => exact .inl ⟨r, rfl⟩
  | skipped r => exact .inl ⟨r, rfl⟩
  | held r =>
    obtain ⟨rest, h⟩ := work_held c (w := after c ops) (e := e) (e' := e') ho
    exact .inr (.inl ⟨r, rest, rfl, h⟩)
  | idle =>
    right; right
    have h : ((after c ops).work c e e').2 = .idle := ho
    unfold World.work at h
    split at h
    · assumption
    · split at h
      · cases h
      · split at h
        · cases h
        · unfold World.serve at h
          dsimp only at h
          split at h
          · split at h <;> cases h
          · cases h
          · cases h
  | panic => exact absurd ho hp
  | _ =>
    exfalso
    have h : ((after c ops).work c e e').2 = _ := ho
    unfold World.work at h
    split at h
    · cases h
    · split at h
      · cases h
      · split at h
        · cases h
        · unfold World.serve at h
          dsimp only at h
          split at h
          · split at h <;> cases h
          · cases h
          · cases h

theorem left_snoc (ops : List Op) (o : Op) (r : Nat) (h : (out c ops o).left = some r) :
    (trace c (ops ++ [o])).filterMap Out.left = (trace c ops).filterMap Out.left ++ [r] := by
  rw [trace_snoc, List.filterMap_append]
  simp [h]

theorem left_mono (a b : List Op) :
    ∃ x, (trace c (a ++ b)).filterMap Out.left = (trace c a).filterMap Out.left ++ x := by
  obtain ⟨x, hx⟩ := trace_append c a b
  exact ⟨_, by rw [hx, List.filterMap_append]⟩

theorem letIn_mono (a b : List Op) :
    ∃ x, (trace c (a ++ b)).filterMap Out.letIn = (trace c a).filterMap Out.letIn ++ x := by
  obtain ⟨x, hx⟩ := trace_append c a b
  exact ⟨_, by rw [hx, List.filterMap_append]⟩

/-- C115. Whatever the services answer and whatever else happens, of the requests that wait at least one leaves the queue from
one turn of the worker to another that comes the timeout later. -/
theorem C115_one_leaves_in_each_timeout (pre : List Op) (s : Stretch) (ht : c.timeout ≤ elapsed s.mid)
    (hw : ((trace c pre).filterMap Out.left).length < ((trace c pre).filterMap Out.letIn).length) :
    ((trace c pre).filterMap Out.left).length < ((trace c (pre ++ s.ops)).filterMap Out.left).length := by
  obtain ⟨e, e', mid, f, f'⟩ := s
  simp only [Stretch.ops] at ht ⊢
  have hin := in_order c pre
  have hb : (after c pre).backlog ≠ [] := by
    intro hb
    rw [hb, List.append_nil] at hin
    rw [hin] at hw
    exact absurd hw (Nat.lt_irrefl _)
  have e1 : pre ++ (.work e e' :: mid ++ [.work f f']) = (pre ++ [.work e e']) ++ (mid ++ [.work f f']) := by simp
  have e2 : pre ++ (.work e e' :: mid ++ [.work f f']) = (pre ++ .work e e' :: mid) ++ [.work f f'] := by simp
  rcases work_cases c pre e e' with ⟨r, hr⟩ | ⟨r, rest, hr, hbk⟩ | h
  · obtain ⟨x, hx⟩ := left_mono c (pre ++ [.work e e']) (mid ++ [.work f f'])
    rw [e1, hx, left_snoc c pre _ r hr]
    simp only [List.length_append, List.length_singleton]
    omega
  · have hne := C115_waits_at_most_the_timeout c pre mid e e' f f' r hr ht
    obtain ⟨l, hl⟩ := left_mono c pre (.work e e' :: mid)
    obtain ⟨m, hm⟩ := letIn_mono c pre (.work e e' :: mid)
    obtain ⟨x, hx⟩ := left_mono c (pre ++ .work e e' :: mid) [.work f f']
    have hin2 := in_order c (pre ++ .work e e' :: mid)
    cases l with
    | cons y ys =>
      rw [e2, hx, hl]
      simp only [List.length_append, List.length_cons]
      omega
    | nil =>
      rw [hl, hm, ← hin, hbk, List.append_nil, List.append_assoc] at hin2
      have hb2 := List.append_cancel_left hin2
      rcases work_cases c (pre ++ .work e e' :: mid) f f' with ⟨r2, hr2⟩ | ⟨r2, rest2, hr2, hbk2⟩ | h
      · rw [e2, left_snoc c _ _ r2 hr2, hl]
        simp only [List.length_append, List.length_singleton]
        omega
      · rw [hbk2] at hb2
        injection hb2 with hb2 _
        rw [hb2] at hr2
        exact absurd hr2 hne
      · rw [h] at hb2; cases hb2
  · exact absurd h hb

theorem drained (segs : List Stretch) (ops : List Op) (k : Nat) (ht : ∀ s ∈ segs, c.timeout ≤ elapsed s.mid)
    (h1 : k ≤ ((trace c ops).filterMap Out.letIn).length)
    (h2 : k ≤ ((trace c ops).filterMap Out.left).length + segs.length) :
    k ≤ ((trace c (ops ++ segs.flatMap Stretch.ops)).filterMap Out.left).length := by
  induction segs generalizing ops with
  | nil => simpa using h2
  | cons s segs ih =>
    have e : ops ++ (s :: segs).flatMap Stretch.ops = (ops ++ s.ops) ++ segs.flatMap Stretch.ops := by simp
    rw [e]
    obtain ⟨x, hx⟩ := left_mono c ops s.ops
    obtain ⟨m, hm⟩ := letIn_mono c ops s.ops
    refine ih (ops ++ s.ops) (fun t h => ht t (by simp [h])) (by rw [hm, List.length_append]; omega) ?_
    simp only [List.length_cons] at h2
    rcases Nat.lt_or_ge ((trace c ops).filterMap Out.left).length ((trace c ops).filterMap Out.letIn).length with h | h
    · have := C115_one_leaves_in_each_timeout c ops s (ht s (by simp)) h
      omega
    · rw [hx, List.length_append]; omega

/-- C115. Every request that is let in leaves the queue: when the worker has had turns a timeout apart as many times as the queue
has places, and once more, all that had been let in have left, whatever the services answered and whatever else happened. -/
theorem C115_every_request_leaves (ops : List Op) (segs : List Stretch) (ht : ∀ s ∈ segs, c.timeout ≤ elapsed s.mid)
    (hn : c.capacity + 1 ≤ segs.length) (r : Nat) (h : Out.queued r ∈ trace c ops) :
    r ∈ (trace c (ops ++ segs.flatMap Stretch.ops)).filterMap Out.left := by
  obtain ⟨waiting, h1, h2⟩ := C115_requests_leave_in_order c ops
  have hlen := congrArg List.length h1
  rw [List.length_append] at hlen
  have hk := drained c segs ops _ ht (Nat.le_refl _) (by omega)
  obtain ⟨w2, g1, -⟩ := C115_requests_leave_in_order c (ops ++ segs.flatMap Stretch.ops)
  obtain ⟨m, hm⟩ := letIn_mono c ops (segs.flatMap Stretch.ops)
  have hp : (trace c ops).filterMap Out.letIn <+: (trace c (ops ++ segs.flatMap Stretch.ops)).filterMap Out.left :=
    List.prefix_of_prefix_length_le ⟨m, hm.symm⟩ ⟨w2, g1⟩ hk
  exact hp.subset (List.mem_filterMap.2 ⟨_, h, rfl⟩)

/-- Two requests wait for services that never answer; after three timeouts both have left, failed fast. -/
example :
    let s : Stretch := ⟨down, down, [.tick 1000], down, down⟩
    let ops : List Op := [.arrive, .work down down, .arrive]
    cfg.timeout ≤ elapsed s.mid ∧ Out.queued 1 ∈ trace cfg ops ∧
      (trace cfg ops).filterMap Out.left = [] ∧
      (trace cfg (ops ++ [s, s, s].flatMap Stretch.ops)).filterMap Out.left = [0, 1] := by
  decide +kernel

end Verif.Arrival
