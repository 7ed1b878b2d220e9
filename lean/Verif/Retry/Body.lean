import Verif.Replay.Props

/-!
# Model of the retry loop together with the replayable request body

`mk_backup` (lib.rs:352-360) clones the body before each send, the transport reads and drops the
bodies it was given, and before resending the loop asks the backup whether the body is capped
(lib.rs:291, 326). Clone `n` travels with send `n`.
-/
namespace Verif.Retry
open Verif.Replay

/-- The sends of one request (lib.rs:285-297, 315-328). Each element of the list is what the transport
does with the bodies it has been given while send `n` is in progress; the loop goes on only while the
backup reports "not capped". -/
def attempts : World → Nat → List (List Op) → World × List (Op × Out)
  | w, _, [] => (w, [])
  | w, n, ops :: more =>
    let r := run w (.clone n :: ops)
    let c := (r.1.isCapped (n + 1)).2
    if c = .isCapped (some false) then
      let r' := attempts r.1 (n + 1) more
      (r'.1, r.2 ++ (.isCapped (n + 1), c) :: r'.2)
    else (r.1, r.2 ++ [(.isCapped (n + 1), c)])

/-- During send `n` the transport only has the bodies of sends `0..n`, and can poll or drop them. -/
def Legal (n : Nat) (ops : List Op) : Prop := ∀ op ∈ ops, ∃ i, i ≤ n ∧ (op = .poll i ∨ op = .drop i)

/-- Every send of the list is legal. -/
def AllLegal : Nat → List (List Op) → Prop
  | _, [] => True
  | n, ops :: more => Legal n ops ∧ AllLegal (n + 1) more

/-- The backup for send `n`: it exists and nobody has touched it. -/
def Backup (w : World) (n : Nat) : Prop :=
  w.handles.length = n + 1 ∧ ∃ h : Handle, w.handles[n]? = some h ∧ h.alive = true ∧ (n = 0 ∨ h.state = none)

theorem step_other {w : World} {op : Op} {n i : Nat} (h : op = .poll i ∨ op = .drop i) (hi : i < n) :
    (w.step op).1.handles.length = w.handles.length ∧ (w.step op).1.handles[n]? = w.handles[n]? := by
  have hne : i ≠ n := by omega
  rcases h with rfl | rfl
  · simp only [World.step, World.poll]
    split
    · exact ⟨rfl, rfl⟩
    · split
      · exact ⟨rfl, rfl⟩
      · split <;> simp [List.getElem?_set_ne hne]
  · simp only [World.step, World.drop]
    split
    · exact ⟨rfl, rfl⟩
    · split <;> simp [List.getElem?_set_ne hne]

theorem run_other {w : World} {ops : List Op} {n : Nat} (h : Legal n ops) :
    (run w ops).1.handles.length = w.handles.length ∧
      (run w ops).1.handles[n + 1]? = w.handles[n + 1]? := by
  induction ops generalizing w with
  | nil => exact ⟨rfl, rfl⟩
  | cons op ops ih =>
    obtain ⟨i, hi, hop⟩ := h op (by simp)
    have h1 := step_other (w := w) (n := n + 1) hop (by omega)
    have h2 := ih (w := (w.step op).1) (fun x hx => h x (by simp [hx]))
    simp only [run]
    exact ⟨h2.1.trans h1.1, h2.2.trans h1.2⟩

theorem Backup.next {w : World} {n : Nat} (h : Backup w n) {ops : List Op} (hl : Legal n ops) :
    Backup (run w (.clone n :: ops)).1 (n + 1) ∧
      ∃ h' : Handle, (run w (.clone n :: ops)).1.handles[n + 1]? = some h' ∧ h'.alive = true ∧ h'.state = none := by
  obtain ⟨hlen, hh, hget, ha, _⟩ := h
  simp only [run, World.step]
  have hc : w.clone n = ({ w with handles := w.handles ++
      [{ state := none, replayBody := true, replayTrailers := true, alive := true }] }, .unit) := by
    simp [World.clone, hget, ha]
  rw [hc]
  have h2 := run_other (w := { w with handles := w.handles ++
      [{ state := none, replayBody := true, replayTrailers := true, alive := true }] }) hl
  have hg : (w.handles ++ [{ state := none, replayBody := true, replayTrailers := true, alive := true }])[n + 1]? =
      some { state := none, replayBody := true, replayTrailers := true, alive := true } := by
    rw [← hlen]; simp
  refine ⟨⟨?_, ?_⟩, ?_⟩
  · rw [h2.1]; simp [hlen]
  · exact ⟨_, by rw [h2.2]; exact hg, rfl, Or.inr rfl⟩
  · exact ⟨_, by rw [h2.2]; exact hg, rfl, rfl⟩

/-- The whole exchange is one schedule of the replay body. -/
theorem attempts_run (w : World) (n : Nat) (atts : List (List Op)) :
    ∃ ops, attempts w n atts = run w ops := by
  induction atts generalizing w n with
  | nil => exact ⟨[], rfl⟩
  | cons o more ih =>
    simp only [attempts]
    have hi : ∀ w : World, (w.isCapped (n + 1)).1 = w := by
      intro w; simp only [World.isCapped]; split
      · rfl
      · split <;> rfl
    split
    · rename_i hc
      obtain ⟨ops', h'⟩ := ih (run w (.clone n :: o)).1 (n + 1)
      refine ⟨(.clone n :: o) ++ (.isCapped (n + 1) :: ops'), ?_⟩
      rw [run_append, h']
      simp only [run, World.step]
      rw [hi]
    · refine ⟨(.clone n :: o) ++ [.isCapped (n + 1)], ?_⟩
      rw [run_append]
      simp only [run, World.step]
      rw [hi]

/-- No body beyond the backups made so far is polled. -/
theorem legal_log {w : World} {n : Nat} {ops : List Op} (hl : Legal n ops) :
    ∀ i o, (Op.poll i, o) ∈ (run w (.clone n :: ops)).2 → i ≤ n := by
  have key : ∀ (w : World) (ops : List Op), Legal n ops → ∀ i o, (Op.poll i, o) ∈ (run w ops).2 → i ≤ n := by
    intro w ops
    induction ops generalizing w with
    | nil => simp [run]
    | cons op ops ih =>
      intro hl i o hm
      simp only [run, List.mem_cons, Prod.mk.injEq] at hm
      rcases hm with ⟨h1, _⟩ | hm
      · obtain ⟨j, hj, hop⟩ := hl op (by simp)
        rcases hop with rfl | rfl
        · cases h1; exact hj
        · cases h1
      · exact ih _ (fun x hx => hl x (by simp [hx])) i o hm
  intro i o hm
  simp only [run, World.step, List.mem_cons, Prod.mk.injEq] at hm
  rcases hm with ⟨h, _⟩ | hm
  · cases h
  · exact key _ _ hl i o hm

/-! ## C54 - property theorems -/

/-- C54 (free body). Whenever the loop decides to resend (the last thing it saw is "not capped"), no
earlier send holds the body any more: the next send's first read is answered by the body - neither
a panic nor a "capped" error. -/
theorem C54_resend_has_free_body (script : List BodyItem) (lower max : Nat) (w : World)
    (hw : tryNew script lower max = some w) (atts : List (List Op)) (hl : AllLegal 0 atts) (k : Nat)
    (hlast : (attempts w 0 atts).2.getLast? = some (.isCapped k, .isCapped (some false))) :
    k = atts.length ∧ (∃ s, (attempts w 0 atts).1.shared = some s ∧ s.isCapped = false) ∧
      ((attempts w 0 atts).1.poll k).2 ≠ .panic ∧ ((attempts w 0 atts).1.poll k).2 ≠ .capped ∧
      ((attempts w 0 atts).1.poll k).2 ≠ .gone := by
  have hb0 : Backup w 0 := by
    unfold tryNew at hw
    split at hw
    · cases hw
    · cases hw; exact ⟨rfl, _, rfl, rfl, Or.inl rfl⟩
  have key : ∀ (atts : List (List Op)) (w : World) (n : Nat), Backup w n → AllLegal n atts → ∀ k,
      (attempts w n atts).2.getLast? = some (.isCapped k, .isCapped (some false)) →
      k = n + atts.length ∧
      ∃ (h : Handle) (s : BodyState), (attempts w n atts).1.handles[k]? = some h ∧ h.alive = true ∧ h.state = none ∧
        (attempts w n atts).1.shared = some s ∧ s.isCapped = false := by
    intro atts
    induction atts with
    | nil => intro w n _ _ k hk; simp [attempts] at hk
    | cons o more ih =>
      intro w n hb hl k hk
      obtain ⟨hb', h', hget', ha', hst'⟩ := hb.next hl.1
      have hcap : ∀ b, ((run w (.clone n :: o)).1.isCapped (n + 1)).2 = .isCapped (some b) →
          ∃ s, (run w (.clone n :: o)).1.shared = some s ∧ s.isCapped = b := by
        intro b hc
        simp only [World.isCapped, hget', ha', hst', Bool.not_true, Bool.false_eq_true, if_false,
          Option.map_none, Option.none_or, Out.isCapped.injEq, Option.map_eq_some_iff] at hc
        exact hc
      simp only [attempts] at hk ⊢
      split
      · rename_i hc
        simp only [hc, if_true] at hk
        cases more with
        | nil =>
          simp only [attempts, List.getLast?_append, List.getLast?_singleton, Option.some_or,
            Option.some.injEq, Prod.mk.injEq, Op.isCapped.injEq] at hk
          obtain ⟨s, hs, hsc⟩ := hcap _ hc
          refine ⟨by simp; omega, h', s, ?_, ha', hst', hs, hsc⟩
          rw [← hk.1]; exact hget'
        | cons o' more' =>
          have hne : (attempts (run w (.clone n :: o)).1 (n + 1) (o' :: more')).2 ≠ [] := by
            simp only [attempts]; split <;> simp
          have hk' : (attempts (run w (.clone n :: o)).1 (n + 1) (o' :: more')).2.getLast? =
              some (.isCapped k, .isCapped (some false)) := by
            rw [← hk, List.getLast?_append]
            rw [List.getLast?_cons]
            cases hg : (attempts (run w (.clone n :: o)).1 (n + 1) (o' :: more')).2.getLast? with
            | none => exact absurd (List.getLast?_eq_none_iff.1 hg) hne
            | some x => simp
          obtain ⟨h1, h2⟩ := ih _ _ hb' hl.2 k hk'
          exact ⟨by simp at h1 ⊢; omega, h2⟩
      · rename_i hc
        simp only [hc, if_false, List.getLast?_append, List.getLast?_singleton, Option.some_or,
          Option.some.injEq, Prod.mk.injEq] at hk
        exact hk.2.elim
  obtain ⟨h1, h, s, hget, ha, hst, hsh, hsc⟩ := key atts w 0 hb0 hl k hlast
  refine ⟨by omega, ⟨s, hsh, hsc⟩, ?_⟩
  have hp : ((attempts w 0 atts).1.poll k).2 = (pollOwned h.replayBody h.replayTrailers s).2 := by
    simp [World.poll, hget, ha, hst, hsh]
  rw [hp]
  have : ∀ rb rt, (pollOwned rb rt s).2 ≠ .panic ∧ (pollOwned rb rt s).2 ≠ .capped ∧ (pollOwned rb rt s).2 ≠ .gone := by
    intro rb rt
    simp only [pollOwned, hsc, Bool.and_false, Bool.false_eq_true, if_false]
    split
    · simp
    · split
      · simp
      · split
        · simp
        · split <;> simp
  exact this _ _

/-- C54 (faithful resends). If the first send read at least one byte of the body (or the body has no
data), every send - however many there are and however much each of them reads - is handed an
initial part of the body's data; and each send that reaches the end got all the data and trailers. -/
theorem C54_resends_are_faithful_partial (script : List BodyItem) (lower max : Nat) (w : World)
    (hw : tryNew script lower max = some w) (first : List Op) (more : List (List Op))
    (hl : AllLegal 0 (first :: more))
    (hread : (∃ b, (Op.poll 0, Out.data b) ∈ (run w (.clone 0 :: first)).2 ∧ b ≠ []) ∨ dataOf script = [])
    (i : Nat) :
    let log := (attempts w 0 (first :: more)).2
    delivered i log <+: dataOf script ∧
      (NoUnknown script → (Op.poll i, Out.eos) ∈ log →
        delivered i log = dataOf script ∧ deliveredTrailers i log = (trailersOf script).toList) := by
  intro log
  obtain ⟨ops, hops⟩ := attempts_run w 0 (first :: more)
  have hg : i = 0 ∨ Primed i (run w ops).2 ∨ dataOf script = [] := by
    by_cases hi : i = 0
    · exact Or.inl hi
    · right
      rcases hread with ⟨b, hb, hne⟩ | h
      · left
        have hpre : ∃ post, (run w ops).2 = (run w (.clone 0 :: first)).2 ++ post := by
          rw [← hops]
          simp only [attempts]
          split
          · exact ⟨_, rfl⟩
          · exact ⟨_, rfl⟩
        obtain ⟨post, hpost⟩ := hpre
        refine ⟨_, post, hpost, ?_, 0, b, hb, hne⟩
        intro o ho
        have := legal_log hl.1 i o ho
        omega
      · exact Or.inr h
  have hlog : log = (run w ops).2 := by rw [← hops]
  rw [hlog]
  refine ⟨C01_replay_prefix_partial script lower max w ops i hw hg, ?_⟩
  intro hu he
  exact C01_replay_complete_partial script lower max w ops i hw hg hu he

/-- The hypotheses are met: three sends, the first reads two of three chunks, then all is resent. -/
example : ∃ w, tryNew [.frame (.data [1]), .frame (.data [2]), .frame (.data [3])] 0 64 = some w ∧
    AllLegal 0 [[.poll 0, .poll 0, .drop 0], [.poll 1, .drop 1], [.poll 2, .poll 2, .poll 2]] ∧
    delivered 2 (attempts w 0 [[.poll 0, .poll 0, .drop 0], [.poll 1, .drop 1], [.poll 2, .poll 2, .poll 2]]).2 = [1, 2, 3] := by
  refine ⟨_, rfl, ?_, by decide⟩
  simp [AllLegal, Legal]

/-- C54 fails in full: when the first send fails before reading the body (for instance a fail-fast
error, which the retry policy retries), the resend repeats the first chunk. -/
theorem C54_failed_unread_send_duplicates_data (d : Bytes) (rest : List BodyItem) (lower max : Nat) (w : World)
    (hd : d ≠ []) (hlen : d.length ≤ max) (hw : tryNew (.frame (.data d) :: rest) lower max = some w) :
    AllLegal 0 [[.drop 0], [.poll 1, .poll 1]] ∧
      delivered 1 (attempts w 0 [[.drop 0], [.poll 1, .poll 1]]).2 = d ++ d := by
  constructor
  · simp [AllLegal, Legal]
  · unfold tryNew at hw
    split at hw
    · cases hw
    · cases hw
      have h1 : max + 1 - d.length ≠ 0 := by omega
      have h2 : 0 < d.length := List.length_pos_iff.2 hd
      simp [attempts, run, World.step, World.clone, World.drop, World.poll, World.isCapped, pollOwned, remaining,
        BodyState.isCapped, BodyState.recordBytes, h1, h2, delivered]

/-- C54: the resend's body can still panic if an earlier *resend* is answered before its body was
touched and is read later (the cap check cannot see an unread clone). -/
theorem C54_lagging_send_panics :
    ∃ w, tryNew [.frame (.data [1]), .frame (.data [2])] 0 64 = some w ∧
      AllLegal 0 [[.poll 0, .drop 0], [], [.poll 2, .poll 1]] ∧
      (Op.poll 1, Out.panic) ∈ (attempts w 0 [[.poll 0, .drop 0], [], [.poll 2, .poll 1]]).2 := by
  refine ⟨_, rfl, ?_, by decide⟩
  simp [AllLegal, Legal]

end Verif.Retry
