import Verif.Common.List
import Verif.StreamWatch.Model

/-!
# C61: a watch keeps the last value its stream delivered, across failures
-/

namespace Verif.StreamWatch

variable {U : Type} (recover : Code → Bool)

/-! ## Specification -/

/-- The events that can come about: those the task waits for. -/
inductive Awaited : Phase → Ev U → Prop
  | failed (b c) : Awaited (.opening b) (.failed c)
  | opened (b u) : Awaited (.opening b) (.opened u)
  | tickOld (n) : Awaited (.waitingOld n) .tick
  | endsOld (n) : Awaited (.waitingOld n) .ends
  | tickNew : Awaited .waitingNew .tick
  | endsNew : Awaited .waitingNew .ends
  | item (u) : Awaited .streaming (.item u)
  | broke (c) : Awaited .streaming (.broke c)
  | drop (p) : Awaited p .drop

/-- A history of the task. -/
inductive History (w : Watch U) : List (Ev U) → Prop
  | nil : History w []
  | snoc (es e) : History w es → Awaited (w.run recover es).phase e → History w (es ++ [e])

/-- The last item delivered, if any. -/
def delivered : List (Ev U) → Option U
  | [] => none
  | e :: es => (delivered es).or (match e with | .opened u => some u | .item u => some u | _ => none)

/-- An event that ends the watch: an error that is not to be recovered from. -/
def Fatal (e : Ev U) : Prop := ∃ c, recover c = false ∧ (e = .failed c ∨ e = .broke c)

/-! ## Lemmas -/

theorem run_snoc (w : Watch U) (es : List (Ev U)) (e : Ev U) :
    w.run recover (es ++ [e]) = (w.run recover es).step recover e := by simp [Watch.run]

theorem delivered_snoc (es : List (Ev U)) (e : Ev U) :
    delivered (es ++ [e]) = (match e with | .opened u => some u | .item u => some u | _ => delivered es) := by
  induction es with
  | nil => cases e <;> rfl
  | cons a es ih => simp only [List.cons_append, delivered, ih]; cases e <;> simp

theorem History.of_snoc {recover : Code → Bool} {w : Watch U} {es : List (Ev U)} {e : Ev U}
    (h : History recover w (es ++ [e])) : History recover w es ∧ Awaited (w.run recover es).phase e := by
  generalize hx : es ++ [e] = x at h
  cases h with
  | nil => simp at hx
  | snoc es' e' h1 h2 =>
    obtain ⟨rfl, he⟩ := List.append_inj' hx rfl
    simp only [List.cons.injEq, and_true] at he
    subst he
    exact ⟨h1, h2⟩

/-- The invariant while there are receivers. -/
structure Inv (init : Option U) (es : List (Ev U)) (w : Watch U) : Prop where
  value : w.value = (delivered es).or init
  noDrop : w.dropped = false
  stop : ∀ c, w.phase = .stopped c → ∃ e, es.getLast? = some e ∧ Fatal recover e
  fatal : ∀ e, es.getLast? = some e → Fatal recover e → ∃ c, w.phase = .stopped (some c)

theorem inv_run (init : Option U) (es : List (Ev U)) (h : History recover (Watch.init init) es)
    (hd : Ev.drop ∉ es) : Inv recover init es ((Watch.init init).run recover es) := by
  induction es using snoc_induction with
  | nil => exact ⟨by simp [Watch.run, Watch.init, delivered], rfl, by simp [Watch.run, Watch.init], by simp⟩
  | snoc es e ih =>
    obtain ⟨h1, h2⟩ := h.of_snoc
    have hd' : Ev.drop ∉ es := fun hm => hd (List.mem_append_left _ hm)
    have hne : e ≠ .drop := fun he => hd (by simp [he])
    obtain ⟨iv, idr, ist, ifa⟩ := ih h1 hd'
    rw [run_snoc]
    generalize (Watch.init init).run recover es = w at *
    obtain ⟨phase, value, publishing, dropped⟩ := w
    dsimp only at iv idr h2 ist ifa
    subst idr iv
    have hlast : (es ++ [e]).getLast? = some e := by simp
    cases h2 with
    | failed b c =>
      by_cases hr : recover c = true
      · cases b <;> exact ⟨by simp [Watch.step, hr, delivered_snoc], by simp [Watch.step, hr],
          by simp [Watch.step, hr], by
            intro e he hf
            rw [hlast, Option.some.injEq] at he
            subst he
            obtain ⟨c', h', h'' | h''⟩ := hf <;> simp at h''
            subst h''; simp [hr] at h'⟩
      · have hr : recover c = false := by simpa using hr
        exact ⟨by simp [Watch.step, hr, delivered_snoc], by simp [Watch.step, hr],
          fun c' _ => ⟨_, hlast, c, hr, .inl rfl⟩, fun _ _ _ => ⟨c, by simp [Watch.step, hr]⟩⟩
    | opened b u =>
      exact ⟨by simp [Watch.step, Watch.send, delivered_snoc], by simp [Watch.step, Watch.send],
        by simp [Watch.step], by
            intro e he hf
            rw [hlast, Option.some.injEq] at he
            subst he
            obtain ⟨c', h', h'' | h''⟩ := hf <;> simp at h''⟩
    | item u =>
      exact ⟨by simp [Watch.step, Watch.send, delivered_snoc], by simp [Watch.step, Watch.send],
        by simp [Watch.step, Watch.send], by
            intro e he hf
            rw [hlast, Option.some.injEq] at he
            subst he
            obtain ⟨c', h', h'' | h''⟩ := hf <;> simp at h''⟩
    | broke c =>
      by_cases hr : recover c = true
      · exact ⟨by simp [Watch.step, hr, delivered_snoc], by simp [Watch.step, hr], by simp [Watch.step, hr], by
            intro e he hf
            rw [hlast, Option.some.injEq] at he
            subst he
            obtain ⟨c', h', h'' | h''⟩ := hf <;> simp at h''
            subst h''; simp [hr] at h'⟩
      · have hr : recover c = false := by simpa using hr
        exact ⟨by simp [Watch.step, hr, delivered_snoc], by simp [Watch.step, hr],
          fun c' _ => ⟨_, hlast, c, hr, .inr rfl⟩, fun _ _ _ => ⟨c, by simp [Watch.step, hr]⟩⟩
    | drop => exact absurd rfl hne
    | _ =>
      exact ⟨by simp [Watch.step, delivered_snoc], by simp [Watch.step], by simp [Watch.step], by
            intro e he hf
            rw [hlast, Option.some.injEq] at he
            subst he
            obtain ⟨c', h', h'' | h''⟩ := hf <;> simp at h''⟩

/-! ## Theorems -/

/-- While the watch has receivers, they read the last item delivered, or the initial value before there is one:
failures in between, and even the end of the watch, do not change it. -/
theorem C61_value_is_the_last_delivered (init : Option U) (es : List (Ev U))
    (h : History recover (Watch.init init) es) (hd : Ev.drop ∉ es) :
    ((Watch.init init).run recover es).value = (delivered es).or init :=
  (inv_run recover init es h hd).value

/-- While it has receivers, the watch stops exactly at the first error that is not to be recovered from. -/
theorem C61_stops_exactly_when_unrecoverable (init : Option U) (es : List (Ev U))
    (h : History recover (Watch.init init) es) (hd : Ev.drop ∉ es) :
    (∃ c, ((Watch.init init).run recover es).phase = .stopped c) ↔ ∃ e, es.getLast? = some e ∧ Fatal recover e :=
  ⟨fun ⟨c, hc⟩ => (inv_run recover init es h hd).stop c hc,
   fun ⟨e, h1, h2⟩ => let ⟨c, hc⟩ := (inv_run recover init es h hd).fatal e h1 h2; ⟨_, hc⟩⟩

/-- So it keeps trying for ever as long as errors can be recovered from. -/
theorem C61_goes_on (init : Option U) (es : List (Ev U)) (h : History recover (Watch.init init) es) (hd : Ev.drop ∉ es)
    (hr : ∀ c, Ev.failed c ∈ es ∨ Ev.broke c ∈ es → recover c = true) (c : Option Code) :
    ((Watch.init init).run recover es).phase ≠ .stopped c := by
  intro hc
  obtain ⟨e, he, c', h1, h2⟩ := (C61_stops_exactly_when_unrecoverable recover init es h hd).1 ⟨c, hc⟩
  have hm : e ∈ es := List.mem_of_getLast? he
  have := hr c' (by rcases h2 with rfl | rfl <;> simp [hm])
  simp [h1] at this

/-- A lookup that fails is followed by a wait: no call is made before the backoff has ticked or ended. -/
theorem C61_waits_after_a_failure (w : Watch U) (c : Code) (b : Option Nat) (hp : w.phase = .opening b)
    (hr : recover c = true) :
    (w.step recover (.failed c)).phase = (match b with | some n => .waitingOld n | none => .waitingNew) ∧
    ∀ b', (w.step recover (.failed c)).phase ≠ .opening b' := by
  obtain ⟨phase, value, publishing, dropped⟩ := w
  dsimp only at hp
  subst hp
  cases b <;> simp [Watch.step, hr]

/-- `k` failed lookups in a row wait for the ticks 1 to `k` of one and the same backoff stream, so that the waits
grow as that stream's do: both from the start and after a stream has broken. -/
theorem C61_failures_in_a_row_use_one_backoff (w : Watch U) (cs : List Code) (hr : ∀ c ∈ cs, recover c = true)
    (hne : cs ≠ []) (hp : w.phase = .opening none ∨ w.phase = .opening (some 0)) :
    (w.run recover (cs.flatMap fun c => [.failed c, .tick])).phase = .opening (some cs.length) := by
  have key : ∀ (cs : List Code) (n : Nat) (w : Watch U), (∀ c ∈ cs, recover c = true) → w.phase = .opening (some n) →
      (w.run recover (cs.flatMap fun c => [.failed c, .tick])).phase = .opening (some (n + cs.length)) := by
    intro cs
    induction cs with
    | nil => intro n w _ h; simpa [Watch.run] using h
    | cons c cs ih =>
      intro n w hr h
      have hc := hr c (by simp)
      have := ih (n + 1) ((w.step recover (.failed c)).step recover .tick) (fun c' hc' => hr c' (by simp [hc']))
        (by obtain ⟨phase, value, publishing, dropped⟩ := w
            dsimp only at h; subst h; simp [Watch.step, hc])
      rw [List.length_cons, show n + (cs.length + 1) = n + 1 + cs.length by omega, ← this]
      rfl
  rcases hp with hp | hp
  · cases cs with
    | nil => exact absurd rfl hne
    | cons c cs =>
      have hc := hr c (by simp)
      have := key cs 1 ((w.step recover (.failed c)).step recover .tick) (fun c' hc' => hr c' (by simp [hc']))
        (by obtain ⟨phase, value, publishing, dropped⟩ := w
            dsimp only at hp; subst hp; simp [Watch.step, hc])
      rw [List.length_cons, show cs.length + 1 = 1 + cs.length by omega, ← this]
      rfl
  · have := key cs 0 w hr hp
    simpa using this

/-- When a stream breaks, the next lookup is made at once; the backoff applies only if that fails. So a peer whose
streams end after an item each is called again without any wait. -/
theorem C61_broken_streams_are_reopened_at_once (w : Watch U) (u : U) (c : Code) (hr : recover c = true)
    (hp : w.phase = .streaming) (hd : w.dropped = false) :
    (w.step recover (.broke c)).phase = .opening (some 0) ∧
    ∀ n, (w.run recover ((List.replicate n [Ev.broke c, .opened u]).flatten)).phase = .streaming := by
  have h1 : ∀ w : Watch U, w.phase = .streaming → w.dropped = false →
      (w.step recover (.broke c)).phase = .opening (some 0) ∧
      ((w.step recover (.broke c)).step recover (.opened u)).phase = .streaming ∧
      ((w.step recover (.broke c)).step recover (.opened u)).dropped = false := by
    rintro ⟨phase, value, publishing, dropped⟩ hp hd
    dsimp only at hp hd
    subst hp hd
    simp [Watch.step, Watch.send, hr]
  refine ⟨(h1 w hp hd).1, fun n => ?_⟩
  induction n generalizing w with
  | zero => simpa [Watch.run] using hp
  | succ n ih =>
    have := ih _ (h1 w hp hd).2.1 (h1 w hp hd).2.2
    rw [List.replicate_succ, List.flatten_cons]
    exact this

/-- Once the receivers are dropped, a task that has delivered stops at once, and one that has not stops at its next
delivery; no later item is stored. -/
theorem C61_stops_without_receivers (w : Watch U) :
    ((w.step recover .drop).dropped = true) ∧
    (w.publishing = true → ∃ c, (w.step recover .drop).phase = .stopped c) ∧
    (∀ u b, w.dropped = true → w.phase = .opening b →
      (w.step recover (.opened u)).phase = .stopped none ∧ (w.step recover (.opened u)).value = w.value) := by
  obtain ⟨phase, value, publishing, dropped⟩ := w
  refine ⟨?_, ?_, ?_⟩
  · cases phase <;> simp [Watch.step] <;> split <;> rfl
  · intro hp
    dsimp only at hp
    subst hp
    cases phase <;> simp [Watch.step]
  · intro u b hd hp
    dsimp only at hp hd
    subst hp hd
    simp [Watch.step]

/-- From which answers of the control plane the users recover. -/
theorem C61_recovery_policies (c : Code) :
    (inboundRecover c = false ↔ c = .invalidArgument ∨ c = .failedPrecondition) ∧
    (outboundRecover c = false ↔
      c = .invalidArgument ∨ c = .failedPrecondition ∨ c = .notFound ∨ c = .unimplemented) ∧
    (spireRecover c = false ↔ c = .invalidArgument) := by
  cases c <;> decide

/-! ## A concrete history -/

def sampleHistory : List (Ev Nat) :=
  [.failed .unavailable, .tick, .failed .internal, .tick, .opened 1, .item 2, .broke .ok, .opened 3, .broke .unavailable,
    .failed .notFound, .tick, .opened 4]

example : History inboundRecover (Watch.init (some 0)) sampleHistory ∧ Ev.drop ∉ sampleHistory ∧
    delivered sampleHistory = some 4 := by
  refine ⟨?_, by decide, by decide⟩
  unfold sampleHistory
  have h0 : History inboundRecover (Watch.init (some 0)) [] := .nil
  have h1 := History.snoc _ (.failed .unavailable) h0 (.failed _ _)
  have h2 := History.snoc _ .tick h1 .tickNew
  have h3 := History.snoc _ (.failed .internal) h2 (.failed _ _)
  have h4 := History.snoc _ .tick h3 (.tickOld _)
  have h5 := History.snoc _ (.opened 1) h4 (.opened _ _)
  have h6 := History.snoc _ (.item 2) h5 (.item _)
  have h7 := History.snoc _ (.broke .ok) h6 (.broke _)
  have h8 := History.snoc _ (.opened 3) h7 (.opened _ _)
  have h9 := History.snoc _ (.broke .unavailable) h8 (.broke _)
  have h10 := History.snoc _ (.failed .notFound) h9 (.failed _ _)
  have h11 := History.snoc _ .tick h10 (.tickOld _)
  exact History.snoc _ (.opened 4) h11 (.opened _ _)

end Verif.StreamWatch
