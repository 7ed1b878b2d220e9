import Verif.RetryMetrics.Lemmas

/-!
# Metrics of outbound routes, with retries: one step of one request
-/

namespace Verif.RetryMetrics

open Verif Verif.Prom

variable {Q B E S L : Type}

/-- What there is of an attempt, by where its request is. -/
def Stage.role (s : Stage E) (a : Nat) : Life :=
  match s with
  | .fresh => .gone
  | .sending cur prev => if cur = some a then .future else if prev.bind Kept.inner = some a then .body else .gone
  | .peeking cur _ _ prev => if cur = a then .body else if prev.bind Kept.inner = some a then .body else .gone
  | .deciding res => if res.inner = some a then .body else .gone
  | .resting res => if res.inner = some a then .body else .gone
  | .given b => if b.inner = some a then .body else .gone
  | .over => .gone

/-- What there is of the request itself. -/
def Stage.route : Stage E → Life
  | .given _ => .body
  | .over => .gone
  | _ => .future

/-- The response that a request has, and has not been given yet. -/
def Stage.rsp? : Stage E → Option Rsp
  | .peeking _ r _ _ => some r
  | .deciding (.rsp r _) => some r
  | .resting (.rsp r _) => some r
  | _ => none

/-- Is there no policy's state? -/
def Stage.plain : Stage E → Prop
  | .fresh => True
  | .sending _ prev => prev = none
  | .given _ => True
  | .over => True
  | _ => False

structure WF (f : Flight E) : Prop where
  nodup : f.stage.holds.Nodup
  plain : f.retry = none → f.stage.plain
  bound : f.tries ≤ 1 + f.retry.getD 0
  fresh : f.stage = .fresh → f.tries = 0 ∧ f.attempts = []
  started : f.stage.route = .future → f.stage ≠ .fresh → 1 ≤ f.tries
  resting : ∀ res, f.stage = .resting res → f.tries ≤ f.retry.getD 0
  last : ∀ a prev, f.stage = .sending (some a) prev → f.attempts.getLast? = some a
  tries : f.attempts.length ≤ f.tries

/-- The last attempt was answered with what became this response. -/
def Got (fil : Rsp → Rsp) (f : Flight E) (o : Out B E) (r : Rsp) : Prop :=
  f.stage.rsp? = some r ∨ ∃ a r0 e, (a, Prom.Ev.future (.ok r0 e)) ∈ o.backend ∧ r = fil r0 ∧ f.attempts.getLast? = some a

structure StepOk (fil : Rsp → Rsp) (sent now : Nat) (f f' : Flight E) (o : Out B E) : Prop where
  wf : WF f'
  retry : f'.retry = f.retry
  role : ∀ a, a < sent → lifeAfter (f.stage.role a) (forOne now a o.backend) = f'.stage.role a
  route : lifeAfter f.stage.route (o.route.map (now, ·)) = f'.stage.route
  calls : (o.calls = [] ∧ f'.attempts = f.attempts) ∨
    ∃ b, o.calls = [b] ∧ f'.attempts = f.attempts ++ [sent] ∧ f'.stage.role sent = .future
  holds : ∀ a ∈ f'.stage.holds, a ∈ f.stage.holds ∨ (a = sent ∧ o.calls ≠ [])
  tries : f'.tries - 1 = f.tries - 1 + (if o.requests then 1 else 0)
  fin : (o.successes = true ∨ o.limitExceeded = true ∨ o.overflow = true) →
    f.stage.route = .future ∧ f'.stage.route ≠ .future ∧ f'.tries = f.tries
  one : (if o.successes then 1 else 0) + (if o.limitExceeded then 1 else 0) + (if o.overflow then 1 else 0) ≤ 1
  success : o.successes = true → 2 ≤ f.tries
  limit : o.limitExceeded = true → f.tries = 1 + f.retry.getD 0
  source : ∀ r, (f'.stage.rsp? = some r ∨ ∃ e, Prom.Ev.future (.ok r e) ∈ o.route) → Got fil f o r ∧ f'.attempts = f.attempts
  stays : f.stage.route ≠ .future → f'.stage.route ≠ .future ∧ f'.attempts = f.attempts ∧ f'.tries = f.tries
  answers : (∃ r e, Prom.Ev.future (.ok r e) ∈ o.route) → f'.stage.route ≠ .future
  targets : ∀ e ∈ o.backend, e.1 ∈ f.stage.holds

theorem ok_same (fil : Rsp → Rsp) (sent now : Nat) (f : Flight E) (h : WF f) : StepOk (B := B) fil sent now f f {} := by
  constructor <;> simp [h, lifeAfter, forOne, Got]

theorem forOne_append (now a : Nat) (l m : List (Nat × Prom.Ev E)) : forOne now a (l ++ m) = forOne now a l ++ forOne now a m := by
  simp [forOne]

theorem forOne_cons (now a b : Nat) (ev : Prom.Ev E) (l : List (Nat × Prom.Ev E)) :
    forOne now a ((b, ev) :: l) = if b = a then (now, ev) :: forOne now a l else forOne now a l := by
  unfold forOne
  by_cases h : b = a <;> simp [h]

theorem forOne_nil (now a : Nat) : forOne now a ([] : List (Nat × Prom.Ev E)) = [] := rfl

theorem start_ok (fil : Rsp → Rsp) (inner : Nat → Bool) (sent now : Nat) (f : Flight E) (h : WF f) (hs : ∀ a ∈ f.stage.holds, a < sent)
    (target : Option B) : StepOk fil sent now f (f.step fil inner sent (.start target)).1 (f.step fil inner sent (.start target)).2 := by
  obtain ⟨retry, tries, attempts, stage⟩ := f
  cases stage with
  | fresh =>
    obtain ⟨h1, h2⟩ := h.fresh rfl
    simp only at h1 h2
    subst h1; subst h2
    cases target with
    | none =>
      constructor <;> simp [Flight.step, Stage.role, Stage.route, Stage.rsp?, Got, forOne, lifeAfter, Stage.holds]
      constructor <;> simp [Stage.holds, Stage.plain, Stage.route]
    | some b =>
      constructor <;> simp [Flight.step, Stage.role, Stage.route, Stage.rsp?, Got, forOne, lifeAfter, Stage.holds]
      · constructor <;> simp [Stage.holds, Stage.plain, Stage.route]
      · intro a ha; omega
  | _ => exact ok_same fil sent now _ h

theorem forOne_held (now a : Nat) (k : Held E) : forOne now a k.release = if k.inner = some a then [(now, .drop)] else [] := by
  obtain ⟨buf, inner⟩ := k
  cases inner with
  | none => simp [Held.release, forOne]
  | some b =>
    by_cases h : b = a <;> simp [Held.release, forOne, h]

theorem forOne_kept (now a : Nat) (k : Kept E) : forOne now a k.release = if k.inner = some a then [(now, .drop)] else [] := by
  cases k with
  | err e => simp [Kept.release, forOne, Kept.inner]
  | rsp r b => exact forOne_held now a b

theorem forOne_prev (now a : Nat) (prev : Option (Kept E)) :
    forOne now a ((prev.map Kept.release).getD []) = if prev.bind Kept.inner = some a then [(now, .drop)] else [] := by
  cases prev with
  | none => simp [forOne]
  | some k => simpa using forOne_kept now a k

theorem release_targets (prev : Option (Kept E)) (e : Nat × Prom.Ev E) (h : e ∈ (prev.map Kept.release).getD []) :
    prev.bind Kept.inner = some e.1 := by
  cases prev with
  | none => simp at h
  | some k =>
    cases k with
    | err x => simp [Kept.release] at h
    | rsp r b =>
      obtain ⟨buf, inner⟩ := b
      cases inner with
      | none => simp [Kept.release, Held.release] at h
      | some b =>
        simp [Kept.release, Held.release] at h
        simp [Kept.inner, h]

theorem forOne_unneeded (now a b : Nat) (k : Held E) :
    forOne now a (unneeded b k) = if b = a ∧ k.inner ≠ some b then [(now, .drop)] else [] := by
  unfold unneeded
  by_cases h : k.inner = some b
  · simp [h, forOne]
  · by_cases hb : b = a
    · subst hb; simp [h, forOne]
    · simp [h, hb, forOne]

/-- What a step that decides about the result of an attempt leaves: the attempt's body is held, or dropped, and the result before is dropped. -/
theorem decided_ok (fil : Rsp → Rsp) (sent now : Nat) (f : Flight E) (h : WF f) (a : Nat) (prev : Option (Kept E)) (k : Held E) (r : Rsp)
    (evs : List (Nat × Prom.Ev E)) (hstage : (f.stage = .sending (some a) prev ∧ ∃ r0 e, evs = [(a, .future (.ok r0 e))] ∧ r = fil r0) ∨
      (∃ x, f.stage = .peeking a r x prev) ∧ ∃ p, evs = [(a, .body p)])
    (hk : k.inner = some a ∨ k.inner = none) (hr : f.retry ≠ none) :
    StepOk (B := B) fil sent now f { f with stage := .deciding (.rsp r k) }
      { backend := evs ++ unneeded a k ++ (prev.map Kept.release).getD [] } := by
  have hnd : prev.bind Kept.inner ≠ some a := by
    have := h.nodup
    intro hp
    rcases hstage with ⟨hs, -⟩ | ⟨⟨x, hs⟩, -⟩ <;> rw [hs] at this <;> simp [Stage.holds, hp] at this
  have hroute : f.stage.route = .future ∧ f.stage ≠ .fresh := by
    rcases hstage with ⟨hs, -⟩ | ⟨⟨x, hs⟩, -⟩ <;> rw [hs] <;> simp [Stage.route]
  have hha : a ∈ f.stage.holds := by
    rcases hstage with ⟨hs, -⟩ | ⟨⟨x, hs⟩, -⟩ <;> rw [hs] <;> simp [Stage.holds]
  have hhp : ∀ b, prev.bind Kept.inner = some b → b ∈ f.stage.holds := by
    intro b hb
    rcases hstage with ⟨hs, -⟩ | ⟨⟨x, hs⟩, -⟩ <;> rw [hs] <;> simp [Stage.holds, hb]
  refine ⟨?_, rfl, ?_, ?_, .inl ⟨rfl, rfl⟩, ?_, rfl, by simp, by simp, by simp, by simp, ?_, ?_, by simp, ?_⟩
  · refine ⟨?_, fun e => absurd e hr, h.bound, by simp, fun _ _ => h.started hroute.1 hroute.2, by simp, by simp, h.tries⟩
    rcases hk with hk | hk <;> simp [Stage.holds, Kept.inner, hk]
  · intro b _
    simp only [forOne_append, forOne_unneeded, forOne_prev]
    rcases hstage with ⟨hs, r0, e, rfl, -⟩ | ⟨⟨x, hs⟩, p, rfl⟩
    · rw [hs]
      by_cases hab : a = b
      · subst hab
        rcases hk with hk | hk <;> simp [Stage.role, Kept.inner, hk, forOne, lifeAfter, Life.see, hnd]
      · by_cases hpb : prev.bind Kept.inner = some b
        · rcases hk with hk | hk <;> simp [Stage.role, Kept.inner, hk, forOne, lifeAfter, Life.see, hpb, hab]
        · rcases hk with hk | hk <;> simp [Stage.role, Kept.inner, hk, forOne, lifeAfter, hpb, hab]
    · rw [hs]
      by_cases hab : a = b
      · subst hab
        rcases hk with hk | hk <;> simp [Stage.role, Kept.inner, hk, forOne, lifeAfter, Life.see, hnd]
      · by_cases hpb : prev.bind Kept.inner = some b
        · rcases hk with hk | hk <;> simp [Stage.role, Kept.inner, hk, forOne, lifeAfter, Life.see, hpb, hab]
        · rcases hk with hk | hk <;> simp [Stage.role, Kept.inner, hk, forOne, lifeAfter, hpb, hab]
  · rw [hroute.1]; rfl
  · intro b hb
    rcases hk with hk | hk <;> simp [Stage.holds, Kept.inner, hk] at hb
    subst hb
    exact .inl hha
  · intro r' hr'
    refine ⟨?_, rfl⟩
    have : r = r' := by simpa [Stage.rsp?] using hr'
    subst this
    rcases hstage with ⟨hs, r0, e, rfl, rfl⟩ | ⟨⟨x, hs⟩, p, rfl⟩
    · exact .inr ⟨a, r0, e, by simp, rfl, h.last a prev hs⟩
    · exact .inl (by rw [hs]; rfl)
  · intro hx; exact absurd hroute.1 hx
  · intro e he
    simp only [List.mem_append] at he
    rcases he with (he | he) | he
    · rcases hstage with ⟨-, r0, e, rfl, -⟩ | ⟨-, p, rfl⟩ <;> simp at he <;> subst he <;> exact hha
    · unfold unneeded at he
      split at he
      · simp at he
      · simp at he; subst he; exact hha
    · exact hhp _ (release_targets prev e he)

theorem answer_ok (fil : Rsp → Rsp) (inner : Nat → Bool) (sent now : Nat) (f : Flight E) (h : WF f) (p : FutPoll E) (noTrailers : Bool) :
    StepOk fil sent now f (f.step (B := B) fil inner sent (.answer p noTrailers)).1 (f.step (B := B) fil inner sent (.answer p noTrailers)).2 := by
  obtain ⟨retry, tries, attempts, stage⟩ := f
  cases stage with
  | sending cur prev =>
    have hb := h.bound
    have hst := h.started rfl (by simp)
    have hl := h.last
    have ht := h.tries
    have hnd := h.nodup
    have hpl := h.plain
    simp only at hb hst hl ht hnd hpl
    cases p with
    | pending =>
      cases cur with
      | none => constructor <;> simp [Flight.step, Stage.route, Got, lifeAfter, h, forOne]
      | some a =>
        constructor <;> simp [Flight.step, Stage.route, Got, h, lifeAfter]
        · intro b hb
          by_cases hab : a = b <;> simp [forOne, hab, Stage.role, Life.see]
        · simp [Stage.holds]
    | err e =>
      cases hr : retry with
      | none =>
        subst hr
        have hp : prev = none := hpl rfl
        subst hp
        cases cur with
        | none =>
          constructor <;> simp [Flight.step, Stage.route, Got, lifeAfter, forOne, Stage.role, Life.see, Stage.holds, Stage.rsp?]
          constructor <;> simp [Stage.holds, Stage.plain, Stage.route]
          · simpa using hb
          · exact ht
        | some a =>
          constructor <;> simp [Flight.step, Stage.route, Got, lifeAfter, Stage.holds, Stage.rsp?, Life.see]
          · constructor <;> simp [Stage.holds, Stage.plain, Stage.route]
            · simpa using hb
            · exact ht
          · intro b hb
            by_cases hab : a = b <;> simp [forOne, hab, Stage.role, Life.see]
      | some n =>
        subst hr
        simp only [Option.getD_some] at hb
        have wf' : WF ⟨some n, tries, attempts, .deciding (.err e)⟩ := by
          constructor <;> simp [Stage.holds, Stage.route, Kept.inner]
          · exact hb
          · exact hst
          · exact ht
        cases cur with
        | none =>
          constructor <;> simp [Flight.step, Stage.route, Got, Stage.holds, Stage.rsp?, Life.see, wf', Kept.inner]
          · intro b hb
            rw [forOne_prev]
            by_cases hpb : prev.bind Kept.inner = some b <;> simp [hpb, Stage.role, Life.see, Kept.inner, lifeAfter]
          · rfl
          · intro a ev he
            simpa using release_targets prev (a, ev) he
        | some a =>
          have hne : prev.bind Kept.inner ≠ some a := by
            intro hp; simp [Stage.holds, hp] at hnd
          constructor <;> simp [Flight.step, Stage.route, Got, Stage.holds, Stage.rsp?, Life.see, wf', Kept.inner]
          · intro b hb
            rw [forOne_cons, forOne_prev]
            by_cases hab : a = b
            · subst hab
              simp [hne, Stage.role, Life.see, Kept.inner, lifeAfter]
            · by_cases hpb : prev.bind Kept.inner = some b <;> simp [hab, hpb, Stage.role, Life.see, Kept.inner, lifeAfter]
          · rfl
          · intro b ev he
            exact .inr (release_targets prev (b, ev) he)
    | ok r e =>
      cases cur with
      | none => exact ok_same fil sent now _ h
      | some a =>
        cases hr : retry with
        | none =>
          subst hr
          have hp : prev = none := hpl rfl
          subst hp
          have hla := hl a none rfl
          constructor <;> simp [Flight.step, Stage.route, Got, lifeAfter, Stage.holds, Stage.rsp?, Life.see]
          · constructor <;> simp [Stage.holds, Stage.plain, Stage.route]
            · simpa using hb
            · exact ht
          · intro b hb
            by_cases hab : a = b <;> simp [forOne, hab, Stage.role, Life.see]
          · exact ⟨a, r, ⟨rfl, rfl⟩, rfl, hla⟩
        | some n =>
          subst hr
          cases hk : peekNone a noTrailers (inner a) with
          | some k =>
            have e' : (⟨some n, tries, attempts, .sending (some a) prev⟩ : Flight E).step (B := B) fil inner sent (.answer (.ok r e) noTrailers) =
                (⟨some n, tries, attempts, .deciding (.rsp (fil r) k)⟩,
                  { backend := [(a, .future (.ok r e))] ++ unneeded a k ++ (prev.map Kept.release).getD [] }) := by
              simp [Flight.step, hk]
            rw [e']
            refine decided_ok (B := B) fil sent now _ h a prev k (fil r) [(a, .future (.ok r e))] (.inl ⟨rfl, r, e, rfl, rfl⟩) ?_ (by simp)
            unfold peekNone at hk
            split at hk
            · cases hk; exact .inl rfl
            · split at hk
              · cases hk; exact .inr rfl
              · cases hk
          | none =>
            have e' : (⟨some n, tries, attempts, .sending (some a) prev⟩ : Flight E).step (B := B) fil inner sent (.answer (.ok r e) noTrailers) =
                (⟨some n, tries, attempts, .peeking a (fil r) none prev⟩, { backend := [(a, .future (.ok r e))] }) := by
              simp [Flight.step, hk]
            rw [e']
            have hne : prev.bind Kept.inner ≠ some a := by
              intro hp; simp [Stage.holds, hp] at hnd
            have hla := hl a prev rfl
            constructor <;> simp [Stage.route, Got, lifeAfter, Stage.holds, Stage.rsp?]
            · constructor <;> simp [Stage.holds, Stage.route]
              · simpa [Stage.holds] using hnd
              · simpa using hb
              · exact hst
              · exact ht
            · intro b hb
              by_cases hab : a = b <;> simp [forOne, hab, Stage.role, Life.see]
            · exact ⟨a, r, ⟨rfl, rfl⟩, rfl, hla⟩
  | _ => exact ok_same fil sent now _ h

theorem peekFirst_inner (p : Polled E) (k : Held E) (h : peekFirst p = some (.inl k)) : k.inner = none := by
  cases p <;> simp [peekFirst] at h <;> subst h <;> rfl

theorem peekSecond_inner (a : Nat) (d p : Polled E) : (peekSecond a d p).inner = some a ∨ (peekSecond a d p).inner = none := by
  cases p <;> simp [peekSecond]

theorem body_ok (fil : Rsp → Rsp) (inner : Nat → Bool) (sent now : Nat) (f : Flight E) (h : WF f) (p : BodyPoll E) :
    StepOk fil sent now f (f.step (B := B) fil inner sent (.body p)).1 (f.step (B := B) fil inner sent (.body p)).2 := by
  obtain ⟨retry, tries, attempts, stage⟩ := f
  cases stage with
  | peeking a r first prev =>
    have hr : retry ≠ none := fun e => h.plain e
    have hb := h.bound
    have hst := h.started rfl (by simp)
    have ht := h.tries
    have hnd := h.nodup
    simp only at hb hst ht hnd
    cases first with
    | none =>
      show StepOk fil sent now _ (Prod.fst (match peekFirst p.polled with | none => _ | some (.inl k) => _ | some (.inr d) => _))
        (Prod.snd (match peekFirst p.polled with | none => _ | some (.inl k) => _ | some (.inr d) => _))
      cases hk : peekFirst p.polled with
      | none =>
        constructor <;> simp [h, Got, Stage.route, lifeAfter, Stage.holds]
        intro b hb
        by_cases hab : a = b <;> simp [forOne, hab, Stage.role, Life.see]
      | some x =>
        cases x with
        | inl k =>
          exact decided_ok (B := B) fil sent now _ h a prev k r [(a, .body p)] (.inr ⟨⟨none, rfl⟩, p, rfl⟩) (.inr (peekFirst_inner _ _ hk)) hr
        | inr d =>
          constructor <;> simp [Got, Stage.route, lifeAfter, Stage.holds, Stage.rsp?]
          · constructor <;> simp [Stage.route, Stage.plain, hr]
            · simpa [Stage.holds] using hnd
            · exact hb
            · exact hst
            · exact ht
          · intro b hb
            by_cases hab : a = b <;> simp [forOne, hab, Stage.role, Life.see]
    | some d =>
      exact decided_ok (B := B) fil sent now _ h a prev _ r [(a, .body p)] (.inr ⟨⟨some d, rfl⟩, p, rfl⟩) (peekSecond_inner a d p.polled) hr
  | given k =>
    obtain ⟨buf, i⟩ := k
    have hb := h.bound
    have ht := h.tries
    simp only at hb ht
    cases buf with
    | cons x xs =>
      constructor <;> simp [Flight.step, Got, Stage.route, lifeAfter, Stage.holds, Stage.rsp?, forOne, Stage.role, Life.see]
      constructor <;> simp [Stage.route, Stage.plain]
      · cases i <;> simp [Stage.holds]
      · exact hb
      · exact ht
    | nil =>
      cases i with
      | none => constructor <;> simp [Flight.step, h, Got, Stage.route, lifeAfter, Stage.holds, Stage.rsp?, forOne, Stage.role, Life.see]
      | some a =>
        constructor <;> simp [Flight.step, h, Got, Stage.route, lifeAfter, Stage.holds, Stage.rsp?, Stage.role, Life.see]
        intro b hb
        by_cases hab : a = b <;> simp [forOne, hab, Life.see]
  | _ => exact ok_same fil sent now _ h

/-- A result that is given to the route. -/
theorem give_ok (fil : Rsp → Rsp) (inner : Nat → Bool) (sent now : Nat) (f : Flight E) (h : WF f) (res : Kept E)
    (hs : f.stage = .deciding res ∨ f.stage = .resting res) (o : Out B E) (h1 : o.calls = []) (h2 : o.backend = []) (h3 : o.requests = false)
    (h4 : (if o.successes then 1 else 0) + (if o.limitExceeded then 1 else 0) + (if o.overflow then 1 else 0) ≤ 1)
    (h5 : o.successes = true → 2 ≤ f.tries) (h6 : o.limitExceeded = true → f.tries = 1 + f.retry.getD 0) :
    StepOk fil sent now f { f with stage := (give inner res).1 } { o with route := (give inner res).2 } := by
  have hroute : f.stage.route = .future := by rcases hs with hs | hs <;> rw [hs] <;> rfl
  have hroute' : (give inner res).1.route ≠ .future := by cases res <;> simp [give, Stage.route]
  have hhold : f.stage.holds = res.inner.toList := by rcases hs with hs | hs <;> rw [hs] <;> rfl
  have hrole : ∀ a, f.stage.role a = if res.inner = some a then .body else .gone := by intro a; rcases hs with hs | hs <;> rw [hs] <;> rfl
  have hhold' : (give inner res).1.holds = res.inner.toList := by cases res <;> rfl
  refine ⟨?_, rfl, ?_, ?_, .inl ⟨h1, rfl⟩, ?_, by simp [h3], fun _ => ⟨hroute, hroute', rfl⟩, h4, h5, h6, ?_, ?_, fun _ => hroute', ?_⟩
  · refine ⟨?_, ?_, h.bound, ?_, fun e => absurd e hroute', ?_, ?_, h.tries⟩
    · show (give inner res).1.holds.Nodup
      rw [hhold', ← hhold]; exact h.nodup
    · intro _; cases res <;> trivial
    · intro e; cases res <;> simp [give] at e
    · intro x e; cases res <;> simp [give] at e
    · intro a prev e; cases res <;> simp [give] at e
  · intro a ha
    rw [hrole, h2]
    cases res <;> rfl
  · rw [hroute]
    cases res <;> simp [give, lifeAfter, Life.see, Stage.route]
  · intro a ha
    refine .inl ?_
    rw [hhold, ← hhold']; exact ha
  · intro r hr
    refine ⟨.inl ?_, rfl⟩
    cases res with
    | err e => simp [give, Stage.rsp?] at hr
    | rsp r' b =>
      simp [give, Stage.rsp?] at hr
      subst hr
      rcases hs with hs | hs <;> rw [hs] <;> rfl
  · intro e; exact absurd hroute e
  · rw [h2]; simp

theorem decide_ok (fil : Rsp → Rsp) (inner : Nat → Bool) (sent now : Nat) (f : Flight E) (h : WF f) (retryable capped : Bool) :
    StepOk fil sent now f (f.step (B := B) fil inner sent (.decide retryable capped)).1
      (f.step (B := B) fil inner sent (.decide retryable capped)).2 := by
  obtain ⟨retry, tries, attempts, stage⟩ := f
  cases stage with
  | deciding res =>
    have hb := h.bound
    have hst := h.started rfl (by simp)
    have ht := h.tries
    have hnd := h.nodup
    have hpl := h.plain
    simp only at hb hst ht hnd
    cases retryable with
    | false =>
      refine give_ok fil inner sent now _ h res (.inl rfl) { successes := _ } rfl rfl rfl ?_ ?_ (by simp)
      · have : ∀ b : Bool, (if b then 1 else 0) + (if false then 1 else 0) + (if false then 1 else 0) ≤ 1 := by decide
        exact this _
      · dsimp only
        intro e
        simp only [Bool.and_eq_true, decide_eq_true_eq] at e
        omega
    | true =>
      cases capped with
      | true => exact give_ok fil inner sent now _ h res (.inl rfl) {} rfl rfl rfl (by simp) (by simp) (by simp)
      | false =>
        by_cases hm : tries ≤ retry.getD 0
        · have e : (⟨retry, tries, attempts, .deciding res⟩ : Flight E).step (B := B) fil inner sent (.decide true false) =
              (⟨retry, tries, attempts, .resting res⟩, {}) := by simp [Flight.step, hm]
          rw [e]
          constructor <;> simp [Got, Stage.route, lifeAfter, Stage.holds, forOne, Stage.role]
          · constructor <;> simp [Stage.route]
            · exact hnd
            · exact fun e => hpl e
            · exact hb
            · exact hst
            · exact hm
            · exact ht
          · intro r hr
            cases res <;> simp [Stage.rsp?] at hr ⊢
            exact hr
        · have e : (⟨retry, tries, attempts, .deciding res⟩ : Flight E).step (B := B) fil inner sent (.decide true false) =
              (⟨retry, tries, attempts, (give inner res).1⟩, { limitExceeded := true, route := (give inner res).2 }) := by simp [Flight.step, hm]
          rw [e]
          refine give_ok fil inner sent now _ h res (.inl rfl) { limitExceeded := true } rfl rfl rfl (by simp) (by simp) ?_
          intro _
          dsimp only
          omega
  | _ => exact ok_same fil sent now _ h

theorem wake_ok (fil : Rsp → Rsp) (inner : Nat → Bool) (sent now : Nat) (f : Flight E) (h : WF f) (hs : ∀ a ∈ f.stage.holds, a < sent)
    (w : Wake B E) : StepOk fil sent now f (f.step fil inner sent (.wake w)).1 (f.step fil inner sent (.wake w)).2 := by
  obtain ⟨retry, tries, attempts, stage⟩ := f
  cases stage with
  | resting res =>
    have hb := h.bound
    have hst := h.started rfl (by simp)
    have ht := h.tries
    have hnd := h.nodup
    have hpl := h.plain
    have hre := h.resting res rfl
    simp only at hb hst ht hnd hre
    cases w with
    | busy => exact give_ok fil inner sent now _ h res (.inr rfl) { overflow := true } rfl rfl rfl (by simp) (by simp) (by simp)
    | failed e =>
      constructor <;> simp [Flight.step, Got, Stage.route, lifeAfter, Stage.holds, Life.see, Stage.rsp?]
      · constructor <;> simp [Stage.route, Stage.plain, Stage.holds]
        · exact hb
        · exact ht
      · intro a ha
        rw [forOne_kept]
        by_cases hk : res.inner = some a <;> simp [hk, Stage.role, Life.see]
      · intro a ev he
        exact release_targets (some res) (a, ev) he
    | ready target =>
      cases target with
      | none =>
        constructor <;> simp [Flight.step, Got, Stage.route, lifeAfter, Stage.holds, Life.see, Stage.rsp?, forOne, Stage.role]
        · constructor <;> simp [Stage.route, Stage.holds]
          · cases res.inner <;> simp
          · exact fun e => absurd (hpl e) (by simp [Stage.plain])
          · omega
          · omega
        · omega
      | some b =>
        have hlt : ∀ a, res.inner = some a → a < sent := by
          intro a ha; exact hs a (by simp [Stage.holds, ha])
        constructor <;> simp [Flight.step, Got, Stage.route, lifeAfter, Stage.holds, Stage.rsp?, forOne, Stage.role]
        · constructor <;> simp [Stage.route, Stage.holds]
          · cases hi : res.inner with
            | none => simp
            | some a =>
              have := hlt a hi
              simp; omega
          · exact fun e => absurd (hpl e) (by simp [Stage.plain])
          · omega
          · omega
        · intro a ha
          simp [show sent ≠ a by omega]
        · intro a ha
          exact .inl ha
        · omega
  | _ => exact ok_same fil sent now _ h

theorem drop_ok (fil : Rsp → Rsp) (inner : Nat → Bool) (sent now : Nat) (f : Flight E) (h : WF f) :
    StepOk fil sent now f (f.step (B := B) fil inner sent .drop).1 (f.step (B := B) fil inner sent .drop).2 := by
  obtain ⟨retry, tries, attempts, stage⟩ := f
  by_cases ho : stage = .over
  · subst ho; exact ok_same fil sent now _ h
  have e : (⟨retry, tries, attempts, stage⟩ : Flight E).step (B := B) fil inner sent .drop =
      (⟨retry, tries, attempts, .over⟩, { route := [.drop], backend := stage.holds.map (·, .drop) }) := by
    cases stage <;> first | rfl | exact absurd rfl ho
  rw [e]
  have hb := h.bound
  have ht := h.tries
  simp only at hb ht
  have hrole : ∀ a, a ∉ stage.holds → stage.role a = .gone := by
    intro a ha
    cases stage <;> simp [Stage.holds, Stage.role] at ha ⊢ <;> simp_all
    intro e; exact ha.1 e.symm
  refine ⟨?_, rfl, ?_, ?_, .inl ⟨rfl, rfl⟩, by simp [Stage.holds], rfl, by simp, by simp, by simp, by simp, by simp [Stage.rsp?], ?_, by simp, by simp⟩
  · constructor <;> simp [Stage.route, Stage.plain, Stage.holds]
    · exact hb
    · exact ht
  · intro a _
    by_cases ha : a ∈ stage.holds
    · have : ∀ (l : List Nat) (x : Life), a ∈ l → lifeAfter x (forOne now a (l.map (·, Prom.Ev.drop (E := E)))) = .gone := by
        intro l x hl
        induction l generalizing x with
        | nil => cases hl
        | cons b l ih =>
          rw [List.map_cons, forOne_cons]
          by_cases hab : b = a
          · rw [if_pos hab]
            show lifeAfter (x.see .drop) _ = _
            rw [show x.see (Prom.Ev.drop (E := E)) = .gone by cases x <;> rfl]
            exact after_gone _
          · rw [if_neg hab]
            exact ih x ((List.mem_cons.1 hl).resolve_left (fun e => hab e.symm))
      exact this _ _ ha
    · have : stage.role a = .gone := hrole a ha
      dsimp only
      rw [this, after_gone]
      rfl
  · dsimp only
    cases stage <;> rfl
  · intro _
    exact ⟨by simp [Stage.route], rfl, rfl⟩

theorem step_ok (fil : Rsp → Rsp) (inner : Nat → Bool) (sent now : Nat) (f : Flight E) (h : WF f) (hs : ∀ a ∈ f.stage.holds, a < sent)
    (ev : Ev B E) : StepOk fil sent now f (f.step fil inner sent ev).1 (f.step fil inner sent ev).2 := by
  cases ev with
  | start t => exact start_ok fil inner sent now f h hs t
  | answer p n => exact answer_ok fil inner sent now f h p n
  | body p => exact body_ok fil inner sent now f h p
  | decide a b => exact decide_ok fil inner sent now f h a b
  | wake w => exact wake_ok fil inner sent now f h hs w
  | drop => exact drop_ok fil inner sent now f h

end Verif.RetryMetrics
