import Verif.IdleCache.Lemmas
import Verif.Common.List

/-!
# C06 - the idle cache
-/
namespace Verif.IdleCache
variable {K V : Type} [DecidableEq K]

/-- The cache after a history of steps, starting empty. -/
def after (idle : Nat) (ops : List (Op K V)) : World K V := (run idle init ops).1

/-- What a lookup of `k` answers now. -/
def World.lookup (w : World K V) (k : K) : Out V := (w.get k).2

/-- A handle is in use until its drop is complete. -/
def Held.inUse (h : Held K V) : Prop := h.life ≠ .released

/-- The history contains no permanent insertion for the key. -/
def NoPermanent (k : K) (ops : List (Op K V)) : Prop := ∀ v, Op.insertPermanent k v ∉ ops

/-- The step looks up or inserts the key. -/
def Uses (k : K) : Op K V → Prop
  | .get k' => k' = k
  | .insertIfVacant k' _ => k' = k
  | .insertPermanent k' _ => k' = k
  | _ => False

/-- Time that passes in a history. -/
def elapsed : List (Op K V) → Nat
  | [] => 0
  | .tick d :: r => d + elapsed r
  | _ :: r => elapsed r

theorem run_append (idle : Nat) (w : World K V) (a b : List (Op K V)) :
    (run idle w (a ++ b)).1 = (run idle (run idle w a).1 b).1 := by
  induction a generalizing w with
  | nil => rfl
  | cons op a ih => simp only [List.cons_append, run]; exact ih _

theorem inv_run (idle : Nat) {w : World K V} (I : Inv idle w) (ops : List (Op K V)) :
    Inv idle (run idle w ops).1 ∧ .panic ∉ (run idle w ops).2 := by
  induction ops generalizing w with
  | nil => exact ⟨I, by simp [run]⟩
  | cons op ops ih =>
    have h := I.step op
    have h' := ih h.1
    simp only [run]
    refine ⟨h'.1, ?_⟩
    simp only [List.mem_cons, not_or]
    exact ⟨fun e => h.2 e.symm, h'.2⟩

theorem inv_after (idle : Nat) (ops : List (Op K V)) : Inv idle (after idle ops) :=
  (inv_run idle (Inv.init idle) ops).1

/-- Steps other than a permanent insertion do not make or change permanent entries. -/
theorem step_permanent (idle : Nat) (w : World K V) (op : Op K V) (k : K) (v : V) (I : Inv idle w)
    (h : w.entries k = some { value := v, task := none }) (hop : ∀ v', op ≠ .insertPermanent k v') :
    (w.step idle op).1.entries k = some { value := v, task := none } := by
  have hc : ∀ k' e, (w.cached k' e).1.entries = w.entries := by
    intro k' e; unfold World.cached; split
    · split <;> rfl
    · rfl
  cases op with
  | get k' =>
    simp only [World.step, World.get]
    split
    · exact h
    · rw [hc]; exact h
  | insertIfVacant k' v' =>
    simp only [World.step, World.insertIfVacant]
    split
    · rename_i he
      have : k ≠ k' := by intro e; subst e; rw [h] at he; cases he
      simp [setEntry, this, h]
    · rw [hc]; exact h
  | insertPermanent k' v' =>
    have : k ≠ k' := by intro e; subst e; exact hop v' rfl
    simp [World.step, World.insertPermanent, setEntry, this, h]
  | cloneHandle j =>
    simp only [World.step, World.cloneHandle]
    split
    · exact h
    · split <;> exact h
  | beginDrop j =>
    simp only [World.step, World.beginDrop]
    split
    · exact h
    · split <;> exact h
  | finishDrop j =>
    simp only [World.step, World.finishDrop]
    split
    · exact h
    · split <;> exact h
  | tick d => exact h
  | expire id =>
    simp only [World.step, World.expire]
    repeat' split
    all_goals exact h
  | wake id =>
    simp only [World.step, World.wake]
    split
    · exact h
    · rename_i t ht
      split
      · exact h
      · split
        · exact h
        · split
          · exact h
          · rename_i e he
            split
            · exact h
            · rename_i i hi
              have : k ≠ t.key := by
                intro e'; subst e'; rw [h] at he; cases he; cases hi
              simp [setEntry, this, h]
      · split <;> exact h
      · split
        · exact h
        · split
          · split
            · exact h
            · split
              · exact h
              · rename_i e he
                split
                · exact h
                · rename_i i hi
                  have : k ≠ t.key := by
                    intro e'; subst e'; rw [h] at he; cases he; cases hi
                  simp [setEntry, this, h]
          · exact h

/-- A permanent entry was put there by a permanent insertion. -/
theorem permanent_origin (idle : Nat) (ops : List (Op K V)) (k : K) (e : Entry V)
    (h : (after idle ops).entries k = some e) (ht : e.task = none) : ¬ NoPermanent k ops := by
  have key : ∀ (ops : List (Op K V)) (w : World K V), (∀ e, w.entries k = some e → e.task ≠ none) → NoPermanent k ops →
      ∀ e, (run idle w ops).1.entries k = some e → e.task ≠ none := by
    intro ops
    induction ops with
    | nil => intro w hw _; exact hw
    | cons op ops ih =>
      intro w hw hn
      simp only [run]
      refine ih _ ?_ (fun v hv => hn v (by simp [hv]))
      have hc : ∀ k' e, (w.cached k' e).1.entries = w.entries := by
        intro k' e; unfold World.cached; split
        · split <;> rfl
        · rfl
      cases op with
      | get k' =>
        simp only [World.step, World.get]
        split
        · exact hw
        · rw [hc]; exact hw
      | insertIfVacant k' v' =>
        simp only [World.step, World.insertIfVacant]
        split
        · intro e he
          simp only [setEntry] at he
          split at he
          · cases he; simp
          · exact hw e he
        · rw [hc]; exact hw
      | insertPermanent k' v' =>
        intro e he
        have : k ≠ k' := by intro e; subst e; exact hn v' (by simp)
        simp [World.step, World.insertPermanent, setEntry, this] at he
        exact hw e he
      | cloneHandle j =>
        simp only [World.step, World.cloneHandle]
        split
        · exact hw
        · split <;> exact hw
      | beginDrop j =>
        simp only [World.step, World.beginDrop]
        split
        · exact hw
        · split <;> exact hw
      | finishDrop j =>
        simp only [World.step, World.finishDrop]
        split
        · exact hw
        · split <;> exact hw
      | tick d => exact hw
      | expire id =>
        simp only [World.step, World.expire]
        repeat' split
        all_goals exact hw
      | wake id =>
        simp only [World.step, World.wake]
        split
        · exact hw
        · rename_i t ht
          split
          · exact hw
          · split
            · exact hw
            · split
              · exact hw
              · split
                · exact hw
                · intro e he
                  simp only [setEntry] at he
                  split at he
                  · cases he
                  · exact hw e he
          · split <;> exact hw
          · split
            · exact hw
            · split
              · split
                · exact hw
                · split
                  · exact hw
                  · split
                    · exact hw
                    · intro e he
                      simp only [setEntry] at he
                      split at he
                      · cases he
                      · exact hw e he
              · exact hw
  intro hn
  exact key ops init (by simp [init]) hn e h ht

/-- C06. The cache never panics: an entry's handle can always be upgraded, and an eviction task always
finds its entry. -/
theorem C06_never_panics (idle : Nat) (ops : List (Op K V)) : .panic ∉ (run idle init ops : World K V × List (Out V)).2 :=
  (inv_run idle (Inv.init idle) ops).2

/-- C06. While any handle for a key is in use, every lookup of the key returns that handle's value
(unless somebody replaced it by a permanent one). -/
theorem C06_lookup_shares_value (idle : Nat) (ops : List (Op K V)) (h : Held K V)
    (hh : h ∈ (after idle ops).handles) (hu : h.inUse) (hn : NoPermanent h.key ops) :
    (after idle ops).lookup h.key = .found h.value := by
  have I := inv_after idle ops
  unfold World.lookup World.get
  cases ht : h.task with
  | none =>
    obtain ⟨e, h1, h2⟩ := I.perm h hh ht
    exact absurd hn (permanent_origin idle ops h.key e h1 h2)
  | some id =>
    obtain ⟨⟨e, h1, h2⟩, _⟩ := I.held h hh hu id ht
    rcases h2 with h2 | h2
    · rw [h1]; simp only; rw [(I.cached h1).2, h2]
    · exact absurd hn (permanent_origin idle ops h.key e h1 h2)

/-- C06. A permanent entry is never evicted: from its insertion on, lookups return its value until it
is replaced by another permanent one. -/
theorem C06_permanent_never_evicted (idle : Nat) (before later : List (Op K V)) (k : K) (v : V)
    (hn : NoPermanent k later) :
    (after idle (before ++ .insertPermanent k v :: later)).lookup k = .found v := by
  have I0 := inv_after idle before
  have hw : ∀ (later : List (Op K V)) (w : World K V), Inv idle w → w.entries k = some { value := v, task := none } → NoPermanent k later →
      (run idle w later).1.entries k = some { value := v, task := none } := by
    intro later
    induction later with
    | nil => intro w _ h _; exact h
    | cons op later ih =>
      intro w I h hn
      simp only [run]
      exact ih _ (I.step op).1 (step_permanent idle w op k v I h (fun v' e => hn v' (by simp [e])))
        (fun v hv => hn v (by simp [hv]))
  unfold after
  rw [run_append]
  simp only [run]
  have I1 := (I0.step (.insertPermanent k v)).1
  have := hw later _ I1 (by simp [World.step, World.insertPermanent, setEntry]) hn
  unfold World.lookup World.get
  have e : after idle before = (run idle init before).1 := rfl
  rw [e] at this
  rw [this]
  rfl

/-- C06. A new value is created for a key only when no handle for the key is in use; so two handles in
use for one key have the same value. -/
theorem C06_one_value_per_key (idle : Nat) (ops : List (Op K V)) (k : K) (v : V) :
    (((after idle ops).step idle (.insertIfVacant k v)).2 = .created v →
      ∀ h ∈ (after idle ops).handles, h.key = k → ¬ h.inUse) ∧
    (NoPermanent k ops → ∀ h ∈ (after idle ops).handles, ∀ h' ∈ (after idle ops).handles,
      h.key = k → h'.key = k → h.inUse → h'.inUse → h.value = h'.value) := by
  have I := inv_after idle ops
  constructor
  · intro hc h hh hk hu
    simp only [World.step, World.insertIfVacant] at hc
    have hnone : (after idle ops).entries k = none := by
      cases he : (after idle ops).entries k with
      | none => rfl
      | some e => rw [he] at hc; simp only at hc; rw [(I.cached he).2] at hc; cases hc
    cases ht : h.task with
    | none =>
      obtain ⟨e, h1, _⟩ := I.perm h hh ht
      rw [hk, hnone] at h1; cases h1
    | some id =>
      obtain ⟨⟨e, h1, _⟩, _⟩ := I.held h hh hu id ht
      rw [hk, hnone] at h1; cases h1
  · intro hn h hh h' hh' hk hk' hu hu'
    have h1 := C06_lookup_shares_value idle ops h hh hu (by rw [hk]; exact hn)
    have h2 := C06_lookup_shares_value idle ops h' hh' hu' (by rw [hk']; exact hn)
    rw [hk] at h1; rw [hk', h1] at h2
    exact Out.found.inj h2

/-- What an eviction is: the task's timer has run out, nobody holds a handle, and the entry is the task's own. -/
theorem evicted_parts {idle : Nat} {w : World K V} (I : Inv idle w) (id : Nat) (hev : (w.step idle (.wake id)).2 = .evicted) :
    ∃ t e, w.tasks[id]? = some t ∧ w.entries t.key = some e ∧ e.task = some id ∧ w.heldBy id = false ∧
      ((∃ dl, dl ≤ w.now ∧ t.phase = .sleeping dl ∧ t.permit = false) ∨ ∃ s, t.phase = .expired s) ∧
      (w.step idle (.wake id)).1 = { w with tasks := w.tasks.set id { t with phase := .done }, entries := setEntry w.entries t.key none } := by
  simp only [World.step, World.wake] at hev ⊢
  cases ht : w.tasks[id]? with
  | none => rw [ht] at hev; cases hev
  | some t =>
    simp only [ht] at hev ⊢
    have own : ∀ e i, w.entries t.key = some e → e.task = some i → t.phase ≠ .done → e.task = some id := by
      intro e i he het hnd
      obtain ⟨e', h1, h2⟩ := I.task id t ht hnd
      rw [he] at h1; cases h1
      rcases h2 with h2 | h2
      · exact h2
      · rw [het] at h2; cases h2
    cases hp : t.phase with
    | done => simp only [hp] at hev; cases hev
    | waiting => simp only [hp] at hev; split at hev <;> cases hev
    | expired s =>
      simp only [hp] at hev ⊢
      cases hh : w.heldBy id with
      | true => simp only [hh, if_true] at hev; cases hev
      | false =>
        simp only [hh, Bool.false_eq_true, if_false] at hev ⊢
        cases he : w.entries t.key with
        | none => simp only [he] at hev; cases hev
        | some e =>
          simp only [he] at hev ⊢
          cases het : e.task with
          | none => simp only [het] at hev; cases hev
          | some i =>
            simp only [het] at hev ⊢
            exact ⟨t, e, rfl, he, own e i he het (by simp [hp]), trivial, .inr ⟨s, hp⟩, rfl⟩
    | sleeping dl =>
      simp only [hp] at hev ⊢
      by_cases hq : t.permit = true
      · simp only [hq, if_true] at hev; cases hev
      · have hq' : t.permit = false := by simpa using hq
        simp only [hq', Bool.false_eq_true, if_false] at hev ⊢
        by_cases hd : dl ≤ w.now
        · simp only [hd, if_true] at hev ⊢
          cases hh : w.heldBy id with
          | true => simp only [hh, if_true] at hev; cases hev
          | false =>
            simp only [hh, Bool.false_eq_true, if_false] at hev ⊢
            cases he : w.entries t.key with
            | none => simp only [he] at hev; cases hev
            | some e =>
              simp only [he] at hev ⊢
              cases het : e.task with
              | none => simp only [het] at hev; cases hev
              | some i =>
                simp only [het] at hev ⊢
                exact ⟨t, e, rfl, he, own e i he het (by simp [hp]), trivial, .inl ⟨dl, hd, hp, hq'⟩, by rw [hq']⟩
        · simp only [hd, if_false] at hev; cases hev

/-- The task's timer had run out by `s` when it went for the lock: at once, or earlier with others running in between. -/
def TimedOut (w : World K V) (id s : Nat) : Prop :=
  ∃ t : Task K, w.tasks[id]? = some t ∧ ((∃ dl, t.phase = .sleeping dl ∧ s = w.now) ∨ t.phase = .expired s)

/-- C06. An entry is evicted only when every handle ever handed out for its key was dropped; and those that were handed out for this entry were dropped
at least the idle timeout before its timer ran out - or after that, while its task was on its way to the lock. -/
theorem C06_evicted_only_after_idle (idle : Nat) (ops : List (Op K V)) (id : Nat)
    (hev : ((after idle ops).step idle (.wake id)).2 = .evicted) :
    ∃ k v s, (after idle ops).entries k = some { value := v, task := some id } ∧
      ((after idle ops).step idle (.wake id)).1.entries k = none ∧
      (∀ k', k' ≠ k → ((after idle ops).step idle (.wake id)).1.entries k' = (after idle ops).entries k') ∧
      (∀ h ∈ (after idle ops).handles, h.key = k → h.life = .released) ∧
      TimedOut (after idle ops) id s ∧ s ≤ (after idle ops).now ∧
      ∀ h ∈ (after idle ops).handles, h.task = some id → h.notifiedAt + idle ≤ s ∨ s ≤ h.notifiedAt := by
  have I := inv_after idle ops
  have I' := (I.step (.wake id)).1
  generalize after idle ops = w at *
  obtain ⟨t, e, ht, he, het, hh, hdue, hs⟩ := evicted_parts I id hev
  rw [hs] at I' ⊢
  have hrel := heldBy_false hh
  refine ⟨t.key, e.value, (match t.phase with | .expired s => s | _ => w.now), by rw [he, ← het], by simp [setEntry],
    fun k' hk' => by simp [setEntry, hk'], fun h hm hk => ?_, ?_, ?_, fun h hm hi => ?_⟩
  · have hno : h.task ≠ none := by
      intro hta
      obtain ⟨e', h1, h2⟩ := I.perm h hm hta
      rw [hk, he] at h1; cases h1; rw [het] at h2; cases h2
    obtain ⟨i, hta⟩ := Option.ne_none_iff_exists'.1 hno
    cases hl : h.life with
    | released => rfl
    | live =>
      obtain ⟨⟨e', h1, _⟩, _⟩ := I'.held h hm (by simp [hl]) i hta
      simp [setEntry, hk] at h1
    | notified =>
      obtain ⟨⟨e', h1, _⟩, _⟩ := I'.held h hm (by simp [hl]) i hta
      simp [setEntry, hk] at h1
  · rcases hdue with ⟨dl, _, hp, _⟩ | ⟨s, hp⟩
    · rw [hp]; exact ⟨t, ht, .inl ⟨dl, hp, rfl⟩⟩
    · rw [hp]; exact ⟨t, ht, .inr hp⟩
  · rcases hdue with ⟨dl, _, hp, _⟩ | ⟨s, hp⟩
    · rw [hp]; exact Nat.le_refl _
    · rw [hp]; exact I.past id t s ht hp
  · have hr := hrel h hm hi
    rcases hdue with ⟨dl, hdl, hp, hq⟩ | ⟨s, hp⟩
    · rw [hp]
      have := ((I.notified h hm (by simp [hr])).2 id t hi ht hq).2.1 dl hp
      exact .inl (by simp only; omega)
    · rw [hp]
      exact I.late h hm (by simp [hr]) id t s hi ht hp

/-- No task is kept from the lock in this history. -/
def Prompt (ops : List (Op K V)) : Prop := ∀ id, Op.expire id ∉ ops

theorem prompt_tasks (idle : Nat) (ops : List (Op K V)) (hp : Prompt ops) (id : Nat) (t : Task K) (ht : (after idle ops).tasks[id]? = some t) :
    (∀ s, t.phase ≠ .expired s) ∧ (t.phase = .done → t.permit = false) := by
  induction ops using snoc_induction generalizing id t with
  | nil => simp [after, run, init] at ht
  | snoc ops op ih =>
    have I := inv_after idle ops
    have hp' : Prompt ops := fun i hi => hp i (List.mem_append_left _ hi)
    have ih := ih hp'
    have e : after idle (ops ++ [op]) = ((after idle ops).step idle op).1 := by unfold after; rw [run_append]; rfl
    rw [e] at ht
    generalize after idle ops = w at *
    have hc : ∀ k' e, (w.cached k' e).1.tasks = w.tasks := by
      intro k' e; unfold World.cached; split
      · split <;> rfl
      · rfl
    have hset : ∀ (i : Nat) (t' : Task K), (w.tasks.set i t')[id]? = some t → (∀ s, t'.phase ≠ .expired s) → (t'.phase = .done → t'.permit = false) →
        (∀ s, t.phase ≠ .expired s) ∧ (t.phase = .done → t.permit = false) := by
      intro i t' hg h1 h2
      rcases getElem?_set_cases hg with ⟨_, rfl⟩ | ⟨_, hg⟩
      · exact ⟨h1, h2⟩
      · exact ih id t hg
    cases op with
    | get k' => simp only [World.step, World.get] at ht; split at ht; · exact ih id t ht
                · rw [hc] at ht; exact ih id t ht
    | insertIfVacant k' v' =>
      simp only [World.step, World.insertIfVacant] at ht
      split at ht
      · dsimp only at ht
        rw [List.getElem?_append] at ht
        split at ht
        · exact ih id t ht
        · have := List.mem_of_getElem? ht
          simp at this
          subst this
          exact ⟨by simp, by simp⟩
      · rw [hc] at ht; exact ih id t ht
    | insertPermanent k' v' => exact ih id t ht
    | cloneHandle j =>
      simp only [World.step, World.cloneHandle] at ht
      split at ht
      · exact ih id t ht
      · split at ht <;> exact ih id t ht
    | beginDrop j =>
      simp only [World.step, World.beginDrop] at ht
      split at ht
      · exact ih id t ht
      · rename_i h hj
        split at ht
        · rename_i hl
          dsimp only at ht
          cases hta : h.task with
          | none => rw [hta] at ht; exact ih id t ht
          | some i =>
            rw [hta] at ht
            simp only [notifyOne, List.getElem?_modify] at ht
            cases hw : w.tasks[id]? with
            | none => rw [hw] at ht; cases ht
            | some y =>
              rw [hw] at ht
              by_cases hi : i = id
              · subst hi
                simp at ht
                subst ht
                obtain ⟨_, t', ht', _, hnd⟩ := I.held h (List.mem_of_getElem? hj) (by simp [hl]) i hta
                rw [hw] at ht'; cases ht'
                exact ⟨(ih i y hw).1, fun hd => absurd hd hnd⟩
              · simp [hi] at ht
                subst ht
                exact ih id y hw
        · exact ih id t ht
    | finishDrop j =>
      simp only [World.step, World.finishDrop] at ht
      split at ht
      · exact ih id t ht
      · split at ht <;> exact ih id t ht
    | tick d => exact ih id t ht
    | expire i => exact absurd (by simp) (hp i)
    | wake i =>
      simp only [World.step, World.wake] at ht
      split at ht
      · exact ih id t ht
      · rename_i t' ht'
        split at ht
        · exact ih id t ht
        · rename_i s hs; exact absurd hs ((ih i t' ht').1 s)
        · split at ht
          · exact hset _ _ ht (by simp) (by simp)
          · exact ih id t ht
        · split at ht
          · exact hset _ _ ht (by simp) (by simp)
          · rename_i hq
            have hq' : t'.permit = false := by simpa using hq
            split at ht
            · split at ht
              · exact hset _ _ ht (by simp) (by simp)
              · split at ht
                · exact hset _ _ ht (by simp) (by simp [hq'])
                · split at ht
                  · exact hset _ _ ht (by simp) (by simp [hq'])
                  · exact hset _ _ ht (by simp) (by simp [hq'])
            · exact ih id t ht

/-- C06. If a task is never kept from the lock once its timer has run out, an entry is evicted only when every handle ever handed out for its key was
dropped at least the idle timeout ago. -/
theorem C06_prompt_eviction_after_idle (idle : Nat) (ops : List (Op K V)) (id : Nat) (hprompt : Prompt ops)
    (hev : ((after idle ops).step idle (.wake id)).2 = .evicted) :
    ∃ k v, (after idle ops).entries k = some { value := v, task := some id } ∧
      ∀ h ∈ (after idle ops).handles, h.key = k → h.life = .released ∧ h.notifiedAt + idle ≤ (after idle ops).now := by
  obtain ⟨k, v, s, he, _, _, hrel, hto, hs, hown⟩ := C06_evicted_only_after_idle idle ops id hev
  have I := inv_after idle ops
  have ho := prompt_tasks idle ops hprompt
  have hown' : ∀ h ∈ (after idle ops).handles, h.task = some id → h.notifiedAt + idle ≤ (after idle ops).now := by
    obtain ⟨t, e, ht, _, _, hh, hdue, _⟩ := evicted_parts I id hev
    intro h hm hi
    rcases hdue with ⟨dl, hdl, hp, hq⟩ | ⟨s, hp⟩
    · have := ((I.notified h hm (by simp [heldBy_false hh h hm hi])).2 id t hi ht hq).2.1 dl hp
      omega
    · exact absurd hp ((ho id t ht).1 s)
  refine ⟨k, v, he, fun h hm hk => ⟨hrel h hm hk, ?_⟩⟩
  cases hta : h.task with
  | none =>
    obtain ⟨e', h1, h2⟩ := I.perm h hm hta
    rw [hk, he] at h1; cases h1; cases h2
  | some i =>
    by_cases hi : i = id
    · subst hi; exact hown' h hm hta
    · obtain ⟨t', ht', hk'⟩ := I.fresh h hm i hta
      by_cases hdone : t'.phase = .done
      · exact (I.old h hm i t' hta ht' hdone).2 ((ho i t' ht').2 hdone)
      · exfalso
        obtain ⟨e', h1, h2⟩ := I.task i t' ht' hdone
        rw [hk', hk, he] at h1; cases h1
        rcases h2 with h2 | h2
        · simp at h2; exact hi h2.symm
        · cases h2

/-- C06, a limit: an entry may be evicted although it was used just now: a task whose timer has run out looks only at whether handles are held once it
has the lock, not at whether there were any since. -/
theorem C06_limit_used_just_now : ∃ ops : List (Op Nat Nat),
    ((after 5 ops).step 5 (.wake 0)).2 = .evicted ∧ ∃ h ∈ (after 5 ops).handles, h.key = 1 ∧ h.notifiedAt = (after 5 ops).now :=
  ⟨[.insertIfVacant 1 10, .beginDrop 0, .finishDrop 0, .wake 0, .tick 5, .expire 0, .get 1, .beginDrop 1, .finishDrop 1], by decide,
    _, List.mem_of_getElem? (i := 1) rfl, rfl, rfl⟩

/-- The unused entry of `k` on its way out: gone, or asleep with nobody holding it. -/
def Idling (idle T : Nat) (k : K) (id : Nat) (w : World K V) : Prop :=
  w.entries k = none ∨
  (∃ e, w.entries k = some e ∧ e.task = some id) ∧
  (∃ t : Task K, w.tasks[id]? = some t ∧ t.key = k ∧
    ((∃ dl, t.permit = false ∧ t.phase = .sleeping dl ∧ dl ≤ T) ∨ ∃ s, t.phase = .expired s)) ∧
  ∀ h ∈ w.handles, h.task = some id → h.life = .released

theorem idling_step (idle T : Nat) (k : K) (id : Nat) (w : World K V) (I : Inv idle w) (op : Op K V)
    (hu : ¬ Uses k op) (h : Idling idle T k id w) : Idling idle T k id (w.step idle op).1 := by
  have hc : ∀ k' e, (w.cached k' e).1.entries = w.entries ∧ (w.cached k' e).1.tasks = w.tasks ∧
      ∀ x ∈ (w.cached k' e).1.handles, x ∈ w.handles ∨ x.task = e.task := by
    intro k' e; unfold World.cached; split
    · split
      · refine ⟨rfl, rfl, ?_⟩
        intro x hx
        rcases List.mem_append.1 hx with hx | hx
        · exact .inl hx
        · simp at hx; subst hx; exact .inr rfl
      · exact ⟨rfl, rfl, fun x hx => .inl hx⟩
    · rename_i hn
      refine ⟨rfl, rfl, ?_⟩
      intro x hx
      rcases List.mem_append.1 hx with hx | hx
      · exact .inl hx
      · simp at hx; subst hx; exact .inr hn.symm
  have hcached : ∀ k' e, w.entries k' = some e → k' ≠ k → Idling idle T k id (w.cached k' e).1 := by
    intro k' e he hk
    obtain ⟨h1, h2, h3⟩ := hc k' e
    rcases h with h | ⟨ha, hb, hd⟩
    · exact .inl (by rw [h1]; exact h)
    · refine .inr ⟨by rw [h1]; exact ha, by rw [h2]; exact hb, ?_⟩
      intro x hx hxt
      rcases h3 x hx with hx | hx
      · exact hd x hx hxt
      · exfalso
        rw [hx] at hxt
        obtain ⟨t, ht, hkt, _⟩ := I.entry k' e id he hxt
        obtain ⟨t', ht', hkt', _⟩ := hb
        rw [ht] at ht'; cases ht'
        exact hk (hkt.symm.trans hkt')
  cases op with
  | get k' =>
    simp only [World.step, World.get]
    split
    · exact h
    · rename_i e he
      exact hcached k' e he (fun e' => hu e')
  | insertIfVacant k' v' =>
    have hk : k ≠ k' := fun e' => hu e'.symm
    simp only [World.step, World.insertIfVacant]
    split
    · rename_i hv
      rcases h with h | ⟨ha, ⟨t, ht, hb⟩, hd⟩
      · exact .inl (by simp [setEntry, hk, h])
      · refine .inr ⟨?_, ⟨t, ?_, hb⟩, ?_⟩
        · obtain ⟨e, he, het⟩ := ha
          exact ⟨e, by simp [setEntry, hk, he], het⟩
        · show (w.tasks ++ _)[id]? = _
          rw [List.getElem?_append_left (lt_of_some ht)]; exact ht
        · intro x hx hxt
          rcases List.mem_append.1 hx with hx | hx
          · exact hd x hx hxt
          · simp at hx; subst hx; simp at hxt
            exact absurd (lt_of_some ht) (by omega)
    · rename_i e he
      exact hcached k' e he (fun e' => hk e'.symm)
  | insertPermanent k' v' =>
    have hk : k ≠ k' := fun e' => hu e'.symm
    simp only [World.step, World.insertPermanent]
    rcases h with h | ⟨⟨e, he, het⟩, hb, hd⟩
    · exact .inl (by simp [setEntry, hk, h])
    · exact .inr ⟨⟨e, by simp [setEntry, hk, he], het⟩, hb, hd⟩
  | cloneHandle j =>
    simp only [World.step, World.cloneHandle]
    split
    · exact h
    · rename_i x hx
      split
      · rename_i hl
        rcases h with h | ⟨ha, hb, hd⟩
        · exact .inl h
        · refine .inr ⟨ha, hb, ?_⟩
          intro y hy hyt
          rcases List.mem_append.1 hy with hy | hy
          · exact hd y hy hyt
          · simp at hy; subst hy
            exact hd y (List.mem_of_getElem? hx) hyt
      · exact h
  | beginDrop j =>
    simp only [World.step, World.beginDrop]
    split
    · exact h
    · rename_i x hx
      split
      · rename_i hl
        rcases h with h | ⟨ha, ⟨t, ht, hb⟩, hd⟩
        · exact .inl h
        · have hxt : x.task ≠ some id := by
            intro e
            have := hd x (List.mem_of_getElem? hx) e
            rw [hl] at this; cases this
          refine .inr ⟨ha, ⟨t, ?_, hb⟩, ?_⟩
          · show (notifyOne w.tasks x.task)[id]? = _
            cases hxx : x.task with
            | none => exact ht
            | some i =>
              have : i ≠ id := by intro e; subst e; exact hxt hxx
              simp [notifyOne, List.getElem?_modify, this, ht]
          · intro y hy hyt
            rcases mem_set_cases hy with rfl | hy
            · exact absurd hyt hxt
            · exact hd y hy hyt
      · exact h
  | finishDrop j =>
    simp only [World.step, World.finishDrop]
    split
    · exact h
    · rename_i x hx
      split
      · rcases h with h | ⟨ha, hb, hd⟩
        · exact .inl h
        · refine .inr ⟨ha, hb, ?_⟩
          intro y hy hyt
          rcases mem_set_cases hy with rfl | hy
          · rfl
          · exact hd y hy hyt
      · exact h
  | tick d => exact h
  | expire i =>
    rcases h with h | ⟨ha, ⟨t, ht, hk, hb⟩, hd⟩
    · refine .inl ?_
      simp only [World.step, World.expire]
      repeat' split
      all_goals exact h
    · simp only [World.step, World.expire]
      have hkeep : Idling idle T k id w := .inr ⟨ha, ⟨t, ht, hk, hb⟩, hd⟩
      repeat' split
      all_goals first | exact hkeep | skip
      rename_i t' ht' _ dl hp hc
      refine .inr ⟨ha, ?_, hd⟩
      by_cases hi : i = id
      · subst hi
        rw [ht] at ht'; cases ht'
        exact ⟨_, List.getElem?_set_self (lt_of_some ht), hk, .inr ⟨_, rfl⟩⟩
      · exact ⟨t, by rw [List.getElem?_set_ne hi]; exact ht, hk, hb⟩
  | wake i =>
    have hother : ∀ (t' : Task K), i ≠ id → ∀ x : Task K, w.tasks[id]? = some x → (w.tasks.set i t')[id]? = some x := by
      intro t' hi x hx; rw [List.getElem?_set_ne hi]; exact hx
    have hset : ∀ (t' : Task K), i ≠ id → Idling idle T k id { w with tasks := w.tasks.set i t' } := by
      intro t' hi
      rcases h with h | ⟨ha, ⟨t, ht, hb⟩, hd⟩
      · exact .inl h
      · exact .inr ⟨ha, ⟨t, hother t' hi t ht, hb⟩, hd⟩
    rcases h with h | ⟨⟨e, he, het⟩, ⟨t, ht, hk, hb⟩, hd⟩
    · -- already gone: a wake-up never inserts
      refine .inl ?_
      simp only [World.step, World.wake]
      repeat' split
      all_goals first | exact h | skip
      all_goals
        simp only [setEntry]
        split
        · rfl
        · exact h
    · by_cases hi : i = id
      · subst hi
        have hfree : w.heldBy i = false := by
          unfold World.heldBy
          rw [List.any_eq_false]
          intro x hx
          simp
          intro hxt
          exact hd x hx hxt
        have hkeep : Idling idle T k i w := .inr ⟨⟨e, he, het⟩, ⟨t, ht, hk, hb⟩, hd⟩
        rcases hb with ⟨dl, hper, hsl, hdl⟩ | ⟨s, hs⟩
        · simp only [World.step, World.wake, ht, hsl, hper, Bool.false_eq_true, if_false]
          by_cases hnow : dl ≤ w.now
          · simp only [hnow, if_true, hfree, Bool.false_eq_true, if_false, hk, he, het]
            exact .inl (by simp [setEntry])
          · simp only [hnow, if_false]
            exact hkeep
        · simp only [World.step, World.wake, ht, hs, hfree, Bool.false_eq_true, if_false, hk, he, het]
          exact .inl (by simp [setEntry])
      · simp only [World.step, World.wake]
        have hkeep : Idling idle T k id w := .inr ⟨⟨e, he, het⟩, ⟨t, ht, hk, hb⟩, hd⟩
        split
        · exact hkeep
        · rename_i t' ht'
          have hkk : ∀ e' i', w.entries t'.key = some e' → e'.task = some i' → t'.phase ≠ .done → k ≠ t'.key := by
            intro e' i' he' hi' hnd hkk
            rw [← hkk, he] at he'; cases he'
            rw [het] at hi'; cases hi'
            obtain ⟨e2, h1, h2⟩ := I.task i t' ht' hnd
            rw [← hkk, he] at h1; cases h1
            rcases h2 with h2 | h2 <;> rw [het] at h2 <;> cases h2
            exact hi rfl
          split
          · exact hkeep
          · split
            · exact hset _ hi
            · split
              · exact hset _ hi
              · rename_i e' he'
                split
                · exact hset _ hi
                · rename_i i' hi'
                  have hkk := hkk e' i' he' hi' (by simp [*])
                  exact .inr ⟨⟨e, by simp [setEntry, hkk, he], het⟩, ⟨t, hother _ hi t ht, hk, hb⟩, hd⟩
          · split
            · exact hset _ hi
            · exact hkeep
          · split
            · exact hset _ hi
            · split
              · split
                · exact hset _ hi
                · split
                  · exact hset _ hi
                  · rename_i e' he'
                    split
                    · exact hset _ hi
                    · rename_i i' hi'
                      have hkk := hkk e' i' he' hi' (by simp [*])
                      exact .inr ⟨⟨e, by simp [setEntry, hkk, he], het⟩, ⟨t, hother _ hi t ht, hk, hb⟩, hd⟩
              · exact hkeep

theorem now_step (idle : Nat) (w : World K V) (op : Op K V) : (w.step idle op).1.now = w.now + elapsed [op] := by
  have hc : ∀ k' e, (w.cached k' e).1.now = w.now := by
    intro k' e; unfold World.cached; split
    · split <;> rfl
    · rfl
  cases op with
  | get k' => simp only [World.step, World.get]; split <;> simp [elapsed, hc]
  | insertIfVacant k' v' => simp only [World.step, World.insertIfVacant]; split <;> simp [elapsed, hc]
  | insertPermanent k' v' => rfl
  | cloneHandle j => simp only [World.step, World.cloneHandle]; repeat' split
                     all_goals rfl
  | beginDrop j => simp only [World.step, World.beginDrop]; repeat' split
                   all_goals rfl
  | finishDrop j => simp only [World.step, World.finishDrop]; repeat' split
                    all_goals rfl
  | tick d => rfl
  | wake i => simp only [World.step, World.wake]; repeat' split
              all_goals rfl
  | expire i => simp only [World.step, World.expire]; repeat' split
                all_goals rfl

theorem elapsed_cons (op : Op K V) (ops : List (Op K V)) : elapsed (op :: ops) = elapsed [op] + elapsed ops := by
  cases op <;> simp [elapsed]

theorem now_run (idle : Nat) (w : World K V) (ops : List (Op K V)) : (run idle w ops).1.now = w.now + elapsed ops := by
  induction ops generalizing w with
  | nil => rfl
  | cons op ops ih =>
    simp only [run]
    rw [ih, now_step, elapsed_cons op ops]; omega

theorem idling_run (idle T : Nat) (k : K) (id : Nat) (ops : List (Op K V)) (hu : ∀ op ∈ ops, ¬ Uses k op) (w : World K V)
    (I : Inv idle w) (h : Idling idle T k id w) : Idling idle T k id (run idle w ops).1 := by
  induction ops generalizing w with
  | nil => exact h
  | cons op ops ih =>
    simp only [run]
    exact ih (fun o ho => hu o (by simp [ho])) _ (I.step op).1 (idling_step idle T k id w I op (hu op (by simp)) h)

/-- C06. An unused entry is evicted: once all its handles are dropped and its task has noticed, any
continuation that does not use the key and lasts at least the idle timeout ends, at the task's next
wake-up, with the entry gone. -/
theorem C06_idle_entry_is_evicted (idle : Nat) (ops later : List (Op K V)) (k : K) (v : V) (id : Nat)
    (he : (after idle ops).entries k = some { value := v, task := some id })
    (hdropped : ∀ h ∈ (after idle ops).handles, h.key = k → ¬ h.inUse)
    (hunused : ∀ op ∈ later, ¬ Uses k op) (htime : idle ≤ elapsed later) :
    (after idle (ops ++ [.wake id] ++ later ++ [.wake id])).lookup k = .missing := by
  have I := inv_after idle ops
  have hstart : Idling idle ((after idle ops).now + idle) k id ((after idle ops).step idle (.wake id)).1 := by
    obtain ⟨t, ht, hk, hnd⟩ := I.entry k _ id he rfl
    have hrel : ∀ h ∈ (after idle ops).handles, h.task = some id → h.life = .released := by
      intro h hh hi
      obtain ⟨t', ht', hk'⟩ := I.fresh h hh id hi
      rw [ht] at ht'; cases ht'
      have := hdropped h hh (hk'.symm.trans hk)
      unfold Held.inUse at this
      exact Classical.not_not.1 this
    have hfree : (after idle ops).heldBy id = false := by
      unfold World.heldBy
      rw [List.any_eq_false]
      intro x hx
      simp
      intro hxt
      exact hrel x hx hxt
    simp only [World.step, World.wake, ht]
    have hre : Idling idle ((after idle ops).now + idle) k id
        { (after idle ops) with tasks := (after idle ops).tasks.set id { t with phase := .sleeping ((after idle ops).now + idle), permit := false } } := by
      refine .inr ⟨⟨_, he, rfl⟩, ⟨_, List.getElem?_set_self (lt_of_some ht), hk, .inl ⟨_, rfl, rfl, Nat.le_refl _⟩⟩, hrel⟩
    cases hp : t.phase with
    | done => exact absurd hp hnd
    | expired s =>
      simp only [hfree, Bool.false_eq_true, if_false, hk, he]
      exact .inl (by simp [setEntry])
    | waiting =>
      simp only
      by_cases hq : t.permit = true
      · simp only [hq, if_true]; exact hre
      · exfalso
        obtain ⟨h, hh, h1, h2⟩ := I.waiting id t ht hp (by simpa using hq)
        have := hrel h hh h1
        rw [h2] at this; cases this
    | sleeping dl =>
      simp only
      by_cases hq : t.permit = true
      · simp only [hq, if_true]; exact hre
      · have hq' : t.permit = false := by simpa using hq
        simp only [hq', Bool.false_eq_true, if_false]
        by_cases hd : dl ≤ (after idle ops).now
        · simp only [hd, if_true, hfree, Bool.false_eq_true, if_false, hk, he]
          exact .inl (by simp [setEntry])
        · simp only [hd, if_false]
          exact .inr ⟨⟨_, he, rfl⟩, ⟨t, ht, hk, .inl ⟨dl, hq', hp, I.deadline id t dl ht hp⟩⟩, hrel⟩
  have I1 := (I.step (.wake id)).1
  have h2 := idling_run idle _ k id later hunused _ I1 hstart
  have I2 := (inv_run idle I1 later).1
  have hnow : (run idle ((after idle ops).step idle (.wake id)).1 later).1.now = (after idle ops).now + elapsed later := by
    rw [now_run, now_step]; simp [elapsed]
  have hfin : (after idle (ops ++ [.wake id] ++ later ++ [.wake id])) =
      ((run idle ((after idle ops).step idle (.wake id)).1 later).1.step idle (.wake id)).1 := by
    unfold after
    rw [run_append, run_append, run_append]
    rfl
  rw [hfin]
  generalize (run idle ((after idle ops).step idle (.wake id)).1 later).1 = w at *
  have hgone : (w.step idle (.wake id)).1.entries k = none := by
    rcases h2 with h2 | ⟨⟨e, he', het⟩, ⟨t, ht, hk, hb⟩, hd⟩
    · simp only [World.step, World.wake]
      repeat' split
      all_goals first | exact h2 | skip
      all_goals
        simp only [setEntry]
        split
        · rfl
        · exact h2
    · have hfree : w.heldBy id = false := by
        unfold World.heldBy
        rw [List.any_eq_false]
        intro x hx
        simp
        intro hxt
        exact hd x hx hxt
      rcases hb with ⟨dl, hper, hsl, hdl⟩ | ⟨s, hs⟩
      · have hnow' : dl ≤ w.now := by omega
        simp only [World.step, World.wake, ht, hsl, hper, Bool.false_eq_true, if_false, hnow', if_true, hfree, hk, he', het]
        simp [setEntry]
      · simp only [World.step, World.wake, ht, hs, Bool.false_eq_true, if_false, hfree, hk, he', het]
        simp [setEntry]
  simp only [World.lookup, World.get, hgone]

/-- A history in which an entry is created, shared, dropped by both users and evicted. -/
def sample : List (Op Nat Nat) :=
  [.insertIfVacant 1 10, .get 1, .beginDrop 0, .finishDrop 0, .wake 0, .tick 5, .wake 0, .beginDrop 1, .finishDrop 1]

example : (run 5 (init : World Nat Nat) (sample ++ [.wake 0, .tick 4, .wake 0, .tick 1, .wake 0, .get 1])).2 =
    [.created 10, .found 10, .idle, .idle, .idle, .idle, .idle, .idle, .idle, .idle, .idle, .idle, .idle, .evicted, .missing] := by
  decide

example : (after 5 sample).entries 1 = some ⟨10, some 0⟩ ∧ (∀ h ∈ (after 5 sample).handles, h.life = .released) ∧
    (∃ h ∈ (after 5 (sample.take 2)).handles, h.life = .live ∧ h.key = 1) := by
  refine ⟨by decide, by decide, ?_⟩
  exact ⟨⟨1, 10, some 0, .live, 0⟩, by simp [after, sample, run, World.step, World.insertIfVacant, World.get, World.cached, init, setEntry, World.taskAlive], rfl, rfl⟩

example : (run 5 (init : World Nat Nat) [.insertIfVacant 1 10, .insertPermanent 1 20, .beginDrop 0, .finishDrop 0, .wake 0, .tick 9,
    .wake 0, .tick 9, .wake 0, .get 1]).2.getLast? = some (.found 20) := by decide

end Verif.IdleCache
