import Verif.DnsResolve.Model
import Verif.Backoff.Props

/-!
# Property theorems: when the control plane is looked up (C94)
-/

namespace Verif.DnsResolve

open Verif
open Verif.Addr (SocketAddr NameAddr)

/-! ## Specification

What the log of lookups, answers and updates says about when the next lookup may begin. -/

/-- The outcome of the lookups so far. -/
inductive Since where
  | new
  /-- The last lookup found something, at that time and until that time. -/
  | found (at_ until_ : Nat)
  /-- A failure that is to be remembered for that long, and how many failed since. -/
  | ttl (first period k : Nat)
  /-- A failure that is not, when the last one was, and how many failed since. -/
  | exp (last k : Nat)
  deriving DecidableEq, Repr

/-- The first failure after a success. -/
def fresh (t : Nat) (e : Error) : Since :=
  match e.negativeTtl with
  | some d => .ttl t d 1
  | none => .exp t 1

/-- A backoff ends after that many delays (`u32::MAX`). -/
def rounds : Nat := 2 ^ 32

def Since.next (s : Since) : Nat × Ev → Since
  | (t, .answered (.ok f)) => .found t f.until_
  | (t, .answered (.error e)) =>
    match s with
    | .ttl f p k => .ttl f p (k + 1)
    | .exp _ k => if k = rounds then fresh t e else .exp t (k + 1)
    | _ => fresh t e
  | _ => s

/-- When the next lookup may begin. -/
def Since.earliest (backoff : Backoff.Backoff) : Since → Nat
  | .new => 0
  | .found t u => max u (t + 5 * 1000000000)
  | .ttl f p k => f + k * p
  | .exp t k => if k = rounds then t else t + backoff.min

def since (log : List (Nat × Ev)) : Since := log.foldl Since.next .new

/-- No lookup begins before its time. -/
def Timely (backoff : Backoff.Backoff) (log : List (Nat × Ev)) : Prop :=
  ∀ pre t post, log = pre ++ (t, .lookup) :: post → (since pre).earliest backoff ≤ t

/-- The addresses that were found, in order. -/
def found (log : List (Nat × Ev)) : List (List SocketAddr) :=
  log.filterMap fun e => match e.2 with | .answered (.ok f) => some f.items | _ => none

/-- The addresses that were told, in order. -/
def told (log : List (Nat × Ev)) : List (List SocketAddr) :=
  log.filterMap fun e => match e.2 with | .told as => some as | _ => none

/-- Whether a lookup is being made. -/
def State.isLooking : State → Bool
  | .connecting _ none => true
  | .connected (.looking none) _ => true
  | _ => false

/-! ## Invariant -/

variable (backoff : Backoff.Backoff)

/-- A backoff that is to be waited for. -/
def Wait.Awaits (now : Nat) : Wait → Since → Prop
  | .ttl next p, s => ∃ f k, s = .ttl f p k ∧ f + k * p ≤ next
  | .exp st, s => ∃ last k, s = .exp last k ∧ st.iterations + 1 = k ∧ st.backoff = backoff ∧ last ≤ now ∧ k ≤ rounds ∧
      (st.sleeping = true → last + backoff.min ≤ st.deadline ∧ k < rounds)

/-- A backoff that was waited for. -/
def Wait.Waited : Option Wait → Since → Prop
  | none, s => s = .new ∨ ∃ t, s = .exp t rounds
  | some (.ttl next p), s => ∃ f k, s = .ttl f p k ∧ f + (k + 1) * p ≤ next
  | some (.exp st), s => ∃ last k, s = .exp last k ∧ st.iterations = k ∧ st.backoff = backoff ∧ k < rounds ∧ st.sleeping = false

def FoundAt (now : Nat) (s : Since) (u : Nat) : Prop := ∃ t, t ≤ now ∧ s = .found t u

def Failed (now : Nat) (s : Since) (e : Error) : Prop := ∃ t, t ≤ now ∧ s = fresh t e

def Task.Fits (now : Nat) (s : Since) : Task → Option (Except Error (List SocketAddr)) → Prop
  | .gone, c => ∃ e, c = some (.error e) ∧ Failed now s e
  | .sending _ u, c => (∀ e, c ≠ some (.error e)) ∧ FoundAt now s u
  | .sleeping d, c => (∀ e, c ≠ some (.error e)) ∧ ∃ t u, s = .found t u ∧ max u (t + 5 * 1000000000) ≤ d
  | .looking none, c => (∀ e, c ≠ some (.error e)) ∧ ∃ t u, s = .found t u
  | .looking (some (.ok f)), c => (∀ e, c ≠ some (.error e)) ∧ FoundAt now s f.until_
  | .looking (some (.error e)), c => (∀ e, c ≠ some (.error e)) ∧ Failed now s e
  | .failing e, c => (∀ e, c ≠ some (.error e)) ∧ Failed now s e

def State.Fits (now : Nat) (s : Since) : State → Prop
  | .connecting b none => Wait.Waited backoff b s
  | .connecting _ (some (.ok f)) => FoundAt now s f.until_
  | .connecting b (some (.error e)) =>
    match b with
    | some b => Wait.Awaits backoff now b s
    | none => Failed now s e
  | .connected t c => Task.Fits now s t c
  | .waiting b => Wait.Awaits backoff now b s

/-- What was found and not told. -/
def Task.holds : Task → List (List SocketAddr)
  | .sending as _ => [as]
  | .looking (some (.ok f)) => [f.items]
  | _ => []

def chanHolds : Option (Except Error (List SocketAddr)) → List (List SocketAddr)
  | some (.ok as) => [as]
  | _ => []

def State.holds : State → List (List SocketAddr)
  | .connecting _ (some (.ok f)) => [f.items]
  | .connected t c => chanHolds c ++ t.holds
  | _ => []

structure Inv (w : World) : Prop where
  fits : State.Fits backoff w.now (since w.log) w.state
  timely : Timely backoff w.log
  times : ∀ e ∈ w.log, e.1 ≤ w.now
  kept : told w.log ++ w.state.holds = found w.log

theorem since_snoc (log : List (Nat × Ev)) (e) : since (log ++ [e]) = (since log).next e := by
  simp [since, List.foldl_append]

theorem Timely.snoc {log : List (Nat × Ev)} (h : Timely backoff log) (t : Nat) (e : Ev)
    (he : e = .lookup → (since log).earliest backoff ≤ t) : Timely backoff (log ++ [(t, e)]) := by
  intro pre t' post hl
  rcases List.eq_nil_or_concat post with rfl | ⟨post', x, rfl⟩
  · have := List.append_inj' hl (by simp)
    obtain ⟨rfl, h2⟩ := this
    simp only [List.cons.injEq, Prod.mk.injEq, and_true] at h2
    obtain ⟨rfl, rfl⟩ := h2
    exact he rfl
  · rw [List.concat_eq_append, ← List.cons_append, ← List.append_assoc] at hl
    have := List.append_inj' hl (by simp)
    exact h _ _ _ this.1

theorem found_snoc (log : List (Nat × Ev)) (t : Nat) (e : Ev) :
    found (log ++ [(t, e)]) = found log ++ (match e with | .answered (.ok f) => [f.items] | _ => []) := by
  unfold found
  rw [List.filterMap_append]
  cases e with
  | answered r => cases r <;> rfl
  | _ => rfl

theorem told_snoc (log : List (Nat × Ev)) (t : Nat) (e : Ev) :
    told (log ++ [(t, e)]) = told log ++ (match e with | .told as => [as] | _ => []) := by
  unfold told
  rw [List.filterMap_append]
  cases e <;> rfl

theorem Inv.init : Inv backoff World.init where
  fits := .inl rfl
  timely := by
    refine Timely.snoc backoff (log := []) ?_ 0 .lookup fun _ => Nat.le_refl _
    intro pre t post h
    simp at h
  times := by simp [World.init, World.note]
  kept := rfl

theorem recover_awaits (now t : Nat) (ht : t ≤ now) (e : Error) :
    Wait.Awaits backoff now (recover backoff now (some e)) (fresh t e) := by
  unfold recover fresh
  simp only [Option.bind_some]
  cases e.negativeTtl with
  | some d => exact ⟨t, 1, rfl, by omega⟩
  | none =>
    refine ⟨t, 1, rfl, rfl, rfl, ht, by decide, ?_⟩
    intro h
    cases h

/-- Waiting, in any state that awaits. -/
theorem Inv.wait (hb : backoff.min ≤ backoff.max) {w : World} {b : Wait} (u : Backoff.Draw)
    (ha : Wait.Awaits backoff w.now b (since w.log)) (ht : Timely backoff w.log) (htimes : ∀ e ∈ w.log, e.1 ≤ w.now)
    (hk : told w.log = found w.log) : Inv backoff (w.wait u b) := by
  have htimes' : ∀ e ∈ w.log ++ [(w.now, Ev.lookup)], e.1 ≤ w.now := by
    intro e he
    rcases List.mem_append.1 he with he | he
    · exact htimes e he
    · simp only [List.mem_singleton] at he; subst he; exact Nat.le_refl _
  have hk' : told (w.log ++ [(w.now, .lookup)]) = found (w.log ++ [(w.now, .lookup)]) := by
    rw [told_snoc, found_snoc]; simpa using hk
  cases b with
  | ttl next p =>
    obtain ⟨f, k, hs, hn⟩ := ha
    by_cases h : next ≤ w.now
    · have : w.wait u (.ttl next p) = World.note { w with state := .connecting (some (.ttl (next + p) p)) none } .lookup := by
        simp only [World.wait, Wait.poll, if_pos h]
      rw [this]
      refine ⟨?_, ht.snoc _ _ _ fun _ => ?_, htimes', ?_⟩
      · simp only [World.note, since_snoc]
        refine ⟨f, k, by simp [hs, Since.next], ?_⟩
        rw [Nat.succ_mul]; omega
      · rw [hs]; exact Nat.le_trans hn h
      · simp only [World.note, State.holds, List.append_nil]; exact hk'
    · have : w.wait u (.ttl next p) = { w with state := .waiting (.ttl next p) } := by
        simp only [World.wait, Wait.poll, if_neg h]
      rw [this]
      exact ⟨⟨f, k, hs, hn⟩, ht, htimes, by simpa [State.holds] using hk⟩
  | exp st =>
    obtain ⟨last, k, hs, hi, hbk, hl, hkr, hsl⟩ := ha
    have hspec := Backoff.poll_spec backoff hb st last (k - 1) w.now u hbk (by omega) (fun h => (hsl h).1) hl
    have hended : (st.poll w.now u).2 = .ended → st.iterations = 2 ^ 32 - 1 := by
      unfold Backoff.Stream.poll Backoff.Stream.awaitSleep
      split
      · split <;> simp
      · split
        · rename_i h; intro _; exact h
        · simp only
          split <;> simp
    have hk1 : (st.poll w.now u).2 ≠ .ended → k < rounds := by
      intro h
      by_cases hs' : st.sleeping = true
      · exact (hsl hs').2
      · by_cases e : st.iterations = 2 ^ 32 - 1
        · exfalso
          apply h
          unfold Backoff.Stream.poll
          rw [if_neg hs', if_pos e]
        · unfold rounds at hkr ⊢; omega
    cases hp : (st.poll w.now u).2 with
    | pending =>
      have : w.wait u (.exp st) = { w with state := .waiting (.exp (st.poll w.now u).1) } := by
        simp only [World.wait, Wait.poll, hp]
      rw [this]
      have h3 := hspec.2.2 (by rw [hp]; simp)
      exact ⟨⟨last, k, hs, by omega, hspec.1, hl, hkr, fun h => ⟨h3.2 h, hk1 (by rw [hp]; simp)⟩⟩, ht, htimes, by simpa [State.holds] using hk⟩
    | item =>
      have : w.wait u (.exp st) = World.note { w with state := .connecting (some (.exp (st.poll w.now u).1)) none } .lookup := by
        simp only [World.wait, Wait.poll, hp]
      rw [this]
      have h2 := hspec.2.1 hp
      have hkr' := hk1 (by rw [hp]; simp)
      refine ⟨?_, ht.snoc _ _ _ fun _ => ?_, htimes', ?_⟩
      · simp only [World.note, since_snoc]
        exact ⟨last, k, by simp [hs, Since.next], by omega, hspec.1, hkr', h2.2.2⟩
      · rw [hs]; simp only [Since.earliest, if_neg (Nat.ne_of_lt hkr')]; exact h2.2.1
      · simp only [World.note, State.holds, List.append_nil]; exact hk'
    | ended =>
      have : w.wait u (.exp st) = World.note { w with state := .connecting none none } .lookup := by
        simp only [World.wait, Wait.poll, hp]
      rw [this]
      have he := hended hp
      have hkk : k = rounds := by unfold rounds; omega
      refine ⟨?_, ht.snoc _ _ _ fun _ => ?_, htimes', ?_⟩
      · simp only [World.note, since_snoc]
        exact .inr ⟨last, by simp [hs, Since.next, hkk]⟩
      · rw [hs]; simp only [Since.earliest, if_pos hkk]; exact hl
      · simp only [World.note, State.holds, List.append_nil]; exact hk'

theorem Inv.poll (hb : backoff.min ≤ backoff.max) {w : World} (h : Inv backoff w) (u : Backoff.Draw) :
    Inv backoff (w.poll backoff u) := by
  obtain ⟨now, st, log⟩ := w
  obtain ⟨hf, ht, htimes, hk⟩ := h
  simp only at hf ht htimes hk
  unfold World.poll
  simp only
  split
  · exact ⟨hf, ht, htimes, hk⟩
  · exact ⟨⟨(fun _ h => by cases h), hf⟩, ht, htimes, hk⟩
  · rename_i b e
    refine Inv.wait backoff hb u ?_ ht htimes (by simpa [State.holds] using hk)
    cases b with
    | some b => exact hf
    | none =>
      obtain ⟨t, ht', hs⟩ := hf
      simp only [Option.getD_none]
      rw [hs]
      exact recover_awaits backoff now t ht' e
  · rename_i t as
    refine ⟨?_, ht.snoc _ _ _ (fun h => by cases h), ?_, ?_⟩
    · simp only [World.note, since_snoc]
      have : (since log).next (now, .told as) = since log := rfl
      rw [this]
      simp only [State.Fits] at hf ⊢
      cases t with
      | gone => obtain ⟨e, h, -⟩ := hf; cases h
      | sending => exact ⟨(fun _ h => by cases h), hf.2⟩
      | sleeping => exact ⟨(fun _ h => by cases h), hf.2⟩
      | failing => exact ⟨(fun _ h => by cases h), hf.2⟩
      | looking r =>
        cases r with
        | none => exact ⟨(fun _ h => by cases h), hf.2⟩
        | some r => cases r <;> exact ⟨(fun _ h => by cases h), hf.2⟩
    · intro e he
      rcases List.mem_append.1 he with he | he
      · exact htimes e he
      · simp only [List.mem_singleton] at he; subst he; exact Nat.le_refl _
    · simp only [World.note, told_snoc, found_snoc, State.holds, chanHolds, List.append_nil, List.nil_append, List.append_assoc] at hk ⊢
      exact hk
  · rename_i t e
    have htg : t = .gone ∧ Failed now (since log) e := by
      simp only [State.Fits] at hf
      cases t with
      | gone => obtain ⟨e', h, h'⟩ := hf; cases h; exact ⟨rfl, h'⟩
      | sending => exact absurd rfl (hf.1 e)
      | sleeping => exact absurd rfl (hf.1 e)
      | failing => exact absurd rfl (hf.1 e)
      | looking r =>
        cases r with
        | none => exact absurd rfl (hf.1 e)
        | some r => cases r <;> exact absurd rfl (hf.1 e)
    obtain ⟨rfl, t', ht', hs⟩ := htg
    refine Inv.wait backoff hb u ?_ ht htimes (by simpa [State.holds, chanHolds, Task.holds] using hk)
    simp only
    rw [hs]
    exact recover_awaits backoff now t' ht' e
  · obtain ⟨e, h, -⟩ := hf; cases h
  · exact ⟨hf, ht, htimes, hk⟩
  · exact Inv.wait backoff hb u hf ht htimes (by simpa [State.holds] using hk)

theorem withMinimumExpiry_eq (now u : Nat) : withMinimumExpiry now u = max u (now + 5 * 1000000000) := by
  unfold withMinimumExpiry minimumTtl
  split <;> omega

theorem Inv.run {w : World} (h : Inv backoff w) : Inv backoff w.run := by
  obtain ⟨now, st, log⟩ := w
  obtain ⟨hf, ht, htimes, hk⟩ := h
  simp only at hf ht htimes hk
  unfold World.run
  simp only
  split
  · obtain ⟨h1, t, h2, h3⟩ := hf
    refine ⟨⟨(fun _ h => by cases h), t, _, h3, ?_⟩, ht, htimes, ?_⟩
    · rw [withMinimumExpiry_eq]; omega
    · simpa [State.holds, chanHolds, Task.holds] using hk
  · rename_i d c
    obtain ⟨h1, t, u, h2, h3⟩ := hf
    by_cases hd : d ≤ now
    · rw [if_pos hd]
      refine ⟨?_, ht.snoc _ _ _ (fun _ => ?_), ?_, ?_⟩
      · simp only [World.note, since_snoc]
        exact ⟨h1, t, u, by simp [h2, Since.next]⟩
      · rw [h2]; exact Nat.le_trans h3 hd
      · intro e he
        rcases List.mem_append.1 he with he | he
        · exact htimes e he
        · simp only [List.mem_singleton] at he; subst he; exact Nat.le_refl _
      · simp only [World.note, told_snoc, found_snoc, State.holds, Task.holds, List.append_nil] at hk ⊢
        exact hk
    · rw [if_neg hd]
      exact ⟨⟨h1, t, u, h2, h3⟩, ht, htimes, hk⟩
  · exact ⟨hf, ht, htimes, hk⟩
  · exact ⟨hf, ht, htimes, hk⟩
  · rename_i e
    obtain ⟨h1, h2⟩ := hf
    exact ⟨⟨e, rfl, h2⟩, ht, htimes, by simpa [State.holds, chanHolds, Task.holds] using hk⟩
  · exact ⟨hf, ht, htimes, hk⟩

theorem Inv.answer {w : World} (h : Inv backoff w) (r : Answer) : Inv backoff (w.answer r) := by
  obtain ⟨now, st, log⟩ := w
  obtain ⟨hf, ht, htimes, hk⟩ := h
  simp only at hf ht htimes hk
  have htimes' : ∀ e ∈ log ++ [(now, Ev.answered r)], e.1 ≤ now := by
    intro e he
    rcases List.mem_append.1 he with he | he
    · exact htimes e he
    · simp only [List.mem_singleton] at he; subst he; exact Nat.le_refl _
  unfold World.answer
  simp only
  split
  · rename_i b
    refine ⟨?_, ht.snoc _ _ _ (fun h => by cases h), htimes', ?_⟩
    · simp only [World.note, since_snoc]
      cases r with
      | ok f => exact ⟨now, Nat.le_refl _, rfl⟩
      | error e =>
        simp only [State.Fits] at hf ⊢
        cases b with
        | none =>
          rcases hf with hs | ⟨t, hs⟩
          · exact ⟨now, Nat.le_refl _, by simp [hs, Since.next]⟩
          · exact ⟨now, Nat.le_refl _, by simp [hs, Since.next]⟩
        | some b =>
          cases b with
          | ttl next p =>
            obtain ⟨f, k, hs, hn⟩ := hf
            exact ⟨f, k + 1, by simp [hs, Since.next], hn⟩
          | exp st =>
            obtain ⟨last, k, hs, hi, hbk, hkr, hsl⟩ := hf
            refine ⟨now, k + 1, by simp [hs, Since.next, Nat.ne_of_lt hkr], by omega, hbk, Nat.le_refl _, hkr, ?_⟩
            rw [hsl]
            intro h
            cases h
    · simp only [World.note, told_snoc, found_snoc, State.holds, List.append_nil] at hk ⊢
      cases r with
      | ok f => simp [hk]
      | error e => simpa using hk
  · rename_i c
    refine ⟨?_, ht.snoc _ _ _ (fun h => by cases h), htimes', ?_⟩
    · simp only [World.note, since_snoc]
      obtain ⟨h1, t, u, hs⟩ := hf
      cases r with
      | ok f => exact ⟨h1, now, Nat.le_refl _, rfl⟩
      | error e => exact ⟨h1, now, Nat.le_refl _, by simp [hs, Since.next]⟩
    · simp only [World.note, told_snoc, found_snoc, State.holds, Task.holds, List.append_nil] at hk ⊢
      cases r with
      | ok f => simp [← hk]
      | error e => simpa using hk
  · exact ⟨hf, ht, htimes, hk⟩

theorem Wait.Awaits.later {b : Wait} {s : Since} {now now' : Nat} (h : Wait.Awaits backoff now b s) (hn : now ≤ now') :
    Wait.Awaits backoff now' b s := by
  cases b with
  | ttl => exact h
  | exp st =>
    obtain ⟨last, k, h1, h2, h3, h4, h5⟩ := h
    exact ⟨last, k, h1, h2, h3, Nat.le_trans h4 hn, h5⟩

theorem Inv.advance {w : World} (h : Inv backoff w) (dt : Nat) : Inv backoff { w with now := w.now + dt } := by
  obtain ⟨now, st, log⟩ := w
  obtain ⟨hf, ht, htimes, hk⟩ := h
  simp only at hf ht htimes hk
  have hfound : ∀ s u, FoundAt now s u → FoundAt (now + dt) s u := fun s u ⟨t, h1, h2⟩ => ⟨t, by omega, h2⟩
  have hfail : ∀ s e, Failed now s e → Failed (now + dt) s e := fun s u ⟨t, h1, h2⟩ => ⟨t, by omega, h2⟩
  refine ⟨?_, ht, fun e he => Nat.le_trans (htimes e he) (Nat.le_add_right _ _), hk⟩
  simp only
  cases st with
  | connecting b r =>
    cases r with
    | none => exact hf
    | some r =>
      cases r with
      | ok f => exact hfound _ _ hf
      | error e =>
        cases b with
        | none => exact hfail _ _ hf
        | some b => exact Wait.Awaits.later backoff hf (Nat.le_add_right _ _)
  | waiting b => exact Wait.Awaits.later backoff hf (Nat.le_add_right _ _)
  | connected t c =>
    cases t with
    | gone => obtain ⟨e, h1, h2⟩ := hf; exact ⟨e, h1, hfail _ _ h2⟩
    | sending => exact ⟨hf.1, hfound _ _ hf.2⟩
    | sleeping => exact hf
    | failing => exact ⟨hf.1, hfail _ _ hf.2⟩
    | looking r =>
      cases r with
      | none => exact hf
      | some r =>
        cases r with
        | ok f => exact ⟨hf.1, hfound _ _ hf.2⟩
        | error e => exact ⟨hf.1, hfail _ _ hf.2⟩

theorem Inv.after (hb : backoff.min ≤ backoff.max) (steps : List Step) : Inv backoff (World.init.after backoff steps) := by
  unfold World.after
  have : ∀ w, Inv backoff w → Inv backoff (steps.foldl (World.step backoff) w) := by
    induction steps with
    | nil => exact fun w h => h
    | cons s ss ih =>
      intro w h
      refine ih _ ?_
      cases s with
      | advance dt => exact h.advance backoff dt
      | answer r => exact h.answer backoff r
      | poll u => exact h.poll backoff hb u
      | run => exact h.run backoff
  exact this _ (Inv.init backoff)

/-! ## Theorems -/

/-- C94. Whatever the schedule and whatever DNS answers, no lookup begins before its time: not before the results of the last one
expire, and not within five seconds of them; after failures that are to be remembered, the `k`-th not before `k` such periods have
passed since the first; after others, not before the least delay of the backoff. -/
theorem C94_never_too_early (min max : Nat) (j : Backoff.Jitter) (hb : Backoff.tryNew min max j = some backoff) (steps : List Step) :
    Timely backoff (World.init.after backoff steps).log := by
  obtain ⟨rfl, h, -⟩ := (Backoff.C05_try_new_validates min max j backoff).1 hb
  exact (Inv.after _ h steps).timely

/-- C94. The addresses told are those that were found, each once and in order: nothing is lost, at most two are on their way. Failures
are never told: the addresses of the control plane stay as they were. -/
theorem C94_told_in_order (min max : Nat) (j : Backoff.Jitter) (hb : Backoff.tryNew min max j = some backoff) (steps : List Step) :
    ∃ onTheWay, onTheWay.length ≤ 2 ∧
      told (World.init.after backoff steps).log ++ onTheWay = found (World.init.after backoff steps).log := by
  obtain ⟨rfl, h, -⟩ := (Backoff.C05_try_new_validates min max j backoff).1 hb
  refine ⟨_, ?_, (Inv.after _ h steps).kept⟩
  generalize (World.init.after _ steps).state = st
  have hc : ∀ c, (chanHolds c).length ≤ 1 := by
    intro c; unfold chanHolds; split <;> simp
  have ht : ∀ t : Task, t.holds.length ≤ 1 := by
    intro t; unfold Task.holds; split <;> simp
  unfold State.holds
  split
  · simp
  · rename_i t c
    have := hc c
    have := ht t
    rw [List.length_append]
    omega
  · simp

/-- Steps that bring no answer. -/
def Step.isQuiet : Step → Bool
  | .answer _ => false
  | _ => true

theorem after_append (w : World) (xs ys : List Step) : w.after backoff (xs ++ ys) = (w.after backoff xs).after backoff ys :=
  List.foldl_append

def someDraw : Backoff.Draw := ⟨0, 1, by decide, by decide⟩

/-- From any wait a lookup begins at last. -/
theorem wait_looks (w : World) (b : Wait) :
    ∃ steps, steps.all Step.isQuiet = true ∧ ((w.wait someDraw b).after backoff steps).state.isLooking = true := by
  cases b with
  | ttl next p =>
    by_cases h : next ≤ w.now
    · exact ⟨[], rfl, by simp [World.wait, Wait.poll, if_pos h, World.after, World.note, State.isLooking]⟩
    · refine ⟨[.advance next, .poll someDraw], rfl, ?_⟩
      have h' : next ≤ w.now + next := by omega
      simp [World.wait, Wait.poll, if_neg h, World.after, World.step, World.poll, if_pos h', World.note, State.isLooking]
  | exp st =>
    cases hp : (st.poll w.now someDraw).2 with
    | item =>
      exact ⟨[], rfl, by simp [World.wait, Wait.poll, hp, World.after, World.note, State.isLooking]⟩
    | ended =>
      exact ⟨[], rfl, by simp [World.wait, Wait.poll, hp, World.after, World.note, State.isLooking]⟩
    | pending =>
      have hs : (st.poll w.now someDraw).1.sleeping = true := by
        revert hp
        unfold Backoff.Stream.poll Backoff.Stream.awaitSleep
        split
        · split
          · simp
          · intro _; assumption
        · split
          · simp
          · simp only
            split <;> simp
      refine ⟨[.advance (st.poll w.now someDraw).1.deadline, .poll someDraw], rfl, ?_⟩
      have hw : w.wait someDraw (.exp st) = { w with state := .waiting (.exp (st.poll w.now someDraw).1) } := by
        simp only [World.wait, Wait.poll, hp]
      rw [hw]
      generalize (st.poll w.now someDraw).1 = st' at hs
      have hp' : (st'.poll (w.now + st'.deadline) someDraw).2 = .item := by
        unfold Backoff.Stream.poll Backoff.Stream.awaitSleep
        rw [if_pos hs, if_pos (by omega)]
      simp [World.after, World.step, World.poll, World.wait, Wait.poll, hp', World.note, State.isLooking]

/-- C94. The proxy never gives up: from every state, if only time passes and it is run, a lookup is being made at last. -/
theorem C94_keeps_looking (steps : List Step) :
    ∃ more, more.all Step.isQuiet = true ∧ (World.init.after backoff (steps ++ more)).state.isLooking = true := by
  rw [show (∃ more : List Step, more.all Step.isQuiet = true ∧
      (World.init.after backoff (steps ++ more)).state.isLooking = true) ↔ ∃ more : List Step, more.all Step.isQuiet = true ∧
      ((World.init.after backoff steps).after backoff more).state.isLooking = true from by simp only [after_append]]
  generalize World.init.after backoff steps = w
  -- One more step may be taken first.
  have more : ∀ (x : Step), x.isQuiet = true → ∀ w : World, (∃ ss : List Step, ss.all Step.isQuiet = true ∧
      ((w.step backoff x).after backoff ss).state.isLooking = true) →
      ∃ ss : List Step, ss.all Step.isQuiet = true ∧ (w.after backoff ss).state.isLooking = true := by
    rintro x hx w ⟨ss, h1, h2⟩
    exact ⟨x :: ss, by simp [hx, h1], h2⟩
  have hwait : ∀ (w : World) b, w.state = .waiting b → ∃ ss : List Step, ss.all Step.isQuiet = true ∧
      (w.after backoff ss).state.isLooking = true := by
    intro w b h
    refine more (.poll someDraw) rfl w ?_
    have : w.step backoff (.poll someDraw) = w.wait someDraw b := by simp only [World.step, World.poll, h]
    rw [this]
    exact wait_looks backoff w b
  have hsleep : ∀ (w : World) d c, w.state = .connected (.sleeping d) c → ∃ ss : List Step, ss.all Step.isQuiet = true ∧
      (w.after backoff ss).state.isLooking = true := by
    intro w d c h
    refine ⟨[.advance d, .run], rfl, ?_⟩
    have hd : d ≤ w.now + d := by omega
    simp [World.after, World.step, World.run, h, if_pos hd, World.note, State.isLooking]
  have hgone : ∀ (w : World) c, w.state = .connected .gone c → (∀ as, c ≠ some (.ok as)) → ∃ ss : List Step,
      ss.all Step.isQuiet = true ∧ (w.after backoff ss).state.isLooking = true := by
    intro w c h hc
    refine more (.poll someDraw) rfl w ?_
    cases c with
    | none =>
      have : w.step backoff (.poll someDraw) = w.wait someDraw (recover backoff w.now none) := by simp only [World.step, World.poll, h]
      rw [this]; exact wait_looks backoff w _
    | some r =>
      cases r with
      | ok as => exact absurd rfl (hc as)
      | error e =>
        have : w.step backoff (.poll someDraw) = w.wait someDraw (recover backoff w.now (some e)) := by
          simp only [World.step, World.poll, h]
        rw [this]; exact wait_looks backoff w _
  have herr : ∀ (w : World) t e, w.state = .connected t (some (.error e)) → ∃ ss : List Step,
      ss.all Step.isQuiet = true ∧ (w.after backoff ss).state.isLooking = true := by
    intro w t e h
    refine more (.poll someDraw) rfl w ?_
    have : w.step backoff (.poll someDraw) = w.wait someDraw (recover backoff w.now (some e)) := by
      simp only [World.step, World.poll, h]
    rw [this]; exact wait_looks backoff w _
  -- The channel may be emptied first.
  have htake : ∀ (w : World) t c, w.state = .connected t c →
      (∀ w' : World, w'.state = .connected t none → ∃ ss : List Step, ss.all Step.isQuiet = true ∧
        (w'.after backoff ss).state.isLooking = true) →
      ∃ ss : List Step, ss.all Step.isQuiet = true ∧ (w.after backoff ss).state.isLooking = true := by
    intro w t c h hn
    cases c with
    | none => exact hn w h
    | some r =>
      cases r with
      | error e => exact herr w t e h
      | ok as =>
        refine more (.poll someDraw) rfl w (hn _ ?_)
        simp [World.step, World.poll, h, World.note]
  have hsend : ∀ (w : World) as u c, w.state = .connected (.sending as u) c → ∃ ss : List Step, ss.all Step.isQuiet = true ∧
      (w.after backoff ss).state.isLooking = true := by
    intro w as u c h
    refine htake w _ c h fun w' h' => ?_
    refine more .run rfl w' (hsleep _ (withMinimumExpiry w'.now u) (some (.ok as)) ?_)
    simp only [World.step, World.run, h']
  have hfailing : ∀ (w : World) e c, w.state = .connected (.failing e) c → ∃ ss : List Step, ss.all Step.isQuiet = true ∧
      (w.after backoff ss).state.isLooking = true := by
    intro w e c h
    refine htake w _ c h fun w' h' => ?_
    refine more .run rfl w' (hgone _ (some (.error e)) ?_ (by simp))
    simp only [World.step, World.run, h']
  cases hst : w.state with
  | connecting b r =>
    cases r with
    | none => exact ⟨[], rfl, by simp [World.after, hst, State.isLooking]⟩
    | some r =>
      refine more (.poll someDraw) rfl w ?_
      cases r with
      | ok f =>
        refine hsend _ f.items f.until_ none ?_
        simp only [World.step, World.poll, hst]
      | error e =>
        have : w.step backoff (.poll someDraw) = w.wait someDraw (b.getD (recover backoff w.now (some e))) := by
          simp only [World.step, World.poll, hst]
        rw [this]; exact wait_looks backoff w _
  | waiting b => exact hwait w b hst
  | connected t c =>
    cases t with
    | sending as u => exact hsend w as u c hst
    | sleeping d => exact hsleep w d c hst
    | failing e => exact hfailing w e c hst
    | gone =>
      refine htake w _ c hst fun w' h' => hgone w' none h' (by simp)
    | looking r =>
      cases r with
      | none => exact ⟨[], rfl, by simp [World.after, hst, State.isLooking]⟩
      | some r =>
        refine more .run rfl w ?_
        cases r with
        | ok f =>
          refine hsend _ f.items f.until_ c ?_
          simp only [World.step, World.run, hst]
        | error e =>
          refine hfailing _ e c ?_
          simp only [World.step, World.run, hst]

/-- C94. Once the addresses found are handed over, they are looked up again when they expire, but not within five
seconds. -/
theorem C94_looks_again (w : World) (as : List SocketAddr) (u dt : Nat) (hw : w.state = .connected (.sending as u) none) :
    (w.after backoff [.run, .advance dt, .run]).state.isLooking = true ↔ max u (w.now + 5 * 1000000000) ≤ w.now + dt := by
  rw [← withMinimumExpiry_eq]
  by_cases h : withMinimumExpiry w.now u ≤ w.now + dt
  · simp [World.after, World.step, World.run, hw, h, World.note, State.isLooking]
  · simp [World.after, World.step, World.run, hw, h, State.isLooking]

/-! ## Concrete cases and limits -/

def second : Nat := 1000000000

def sampleBackoff : Backoff.Backoff := ⟨second, 10 * second, .fin 0 1⟩

example : Backoff.tryNew second (10 * second) (.fin 0 1) = some sampleBackoff := by decide +kernel

/-- The times of lookups. -/
def lookups (w : World) : List Nat := w.log.filterMap fun e => match e.2 with | .lookup => some e.1 | _ => none

def someAddr : SocketAddr := ⟨.v4 1, 8086⟩

def gone (secs : Option Nat) : Error := ⟨.noRecords secs, .resolve .other⟩

/-- A first lookup that finds an address for a second, and another after five. -/
def sampleSteps : List Step :=
  [.answer (.ok ⟨[someAddr], second⟩), .poll someDraw, .run, .poll someDraw, .advance second, .run, .advance (4 * second), .run]

example : lookups (World.init.after sampleBackoff sampleSteps) = [0, 5 * second] ∧
    told (World.init.after sampleBackoff sampleSteps).log = [[someAddr]] := by decide +kernel

example : ((World.init.after sampleBackoff (sampleSteps.take 2)).state matches .connected (.sending _ _) none) = true := by
  decide +kernel

/-- C94, a limit. When a lookup takes longer than a failure is to be remembered, the next begins at once when it fails, and so again for
every period that it took: the interval makes up for what it missed. -/
theorem C94_limit_missed_periods :
    lookups (World.init.after sampleBackoff
      [.answer (.error (gone (some 60))), .poll someDraw, .advance (60 * second), .poll someDraw, .advance (180 * second),
        .answer (.error (gone (some 60))), .poll someDraw, .answer (.error (gone (some 60))), .poll someDraw,
        .answer (.error (gone (some 60))), .poll someDraw]) =
      [0, 60 * second, 240 * second, 240 * second, 240 * second] := by decide +kernel

/-- C94, a limit. How long a failure is to be remembered is read of the first of a series of failures only: after one that does not say,
one that does is not heeded. -/
theorem C94_limit_only_the_first_counts :
    lookups (World.init.after sampleBackoff
      [.answer (.error (gone none)), .poll someDraw, .advance second, .poll someDraw, .answer (.error (gone (some 60))),
        .poll someDraw, .advance (2 * second), .poll someDraw]) =
      [0, second, 3 * second] := by decide +kernel

end Verif.DnsResolve
