import Verif.RetryMetrics.Props

/-!
# Metrics of outbound routes, with retries: what the recorders see of bodies

C121: the recorder of a route sees the frames, and the end, of the last attempt.
-/

namespace Verif.RetryMetrics

open Verif Verif.Prom

variable {Q B E S L : Type}

/-! ## Specification -/

/-- The frames, and the error, that a recorder saw of a response's body. -/
def framesOf (evs : List (Nat × Prom.Ev E)) : List (Polled E) :=
  evs.filterMap fun e => match e.2 with
    | .body ⟨.data d, _⟩ => some (.data d)
    | .body ⟨.trailers h, _⟩ => some (.trailers h)
    | .body ⟨.err x, _⟩ => some (.err x)
    | _ => none

/-- The recorder saw that the response has no body, or how its body ended by itself. -/
def SawEnd (evs : List (Nat × Prom.Ev E)) : Prop :=
  (∃ now r, (now, Prom.Ev.future (.ok r true)) ∈ evs) ∨ ∃ now p eos, (now, Prom.Ev.body p) ∈ evs ∧ LastPoll p eos

/-! ## Lemmas -/

theorem framesOf_append (a b : List (Nat × Prom.Ev E)) : framesOf (a ++ b) = framesOf a ++ framesOf b := List.filterMap_append

theorem sawEnd_append (a b : List (Nat × Prom.Ev E)) : SawEnd (a ++ b) ↔ SawEnd a ∨ SawEnd b := by
  unfold SawEnd
  constructor
  · rintro (⟨n, r, h⟩ | ⟨n, p, e, h, hl⟩)
    · rcases List.mem_append.1 h with h | h
      · exact .inl (.inl ⟨n, r, h⟩)
      · exact .inr (.inl ⟨n, r, h⟩)
    · rcases List.mem_append.1 h with h | h
      · exact .inl (.inr ⟨n, p, e, h, hl⟩)
      · exact .inr (.inr ⟨n, p, e, h, hl⟩)
  · rintro ((⟨n, r, h⟩ | ⟨n, p, e, h, hl⟩) | (⟨n, r, h⟩ | ⟨n, p, e, h, hl⟩))
    · exact .inl ⟨n, r, List.mem_append_left _ h⟩
    · exact .inr ⟨n, p, e, List.mem_append_left _ h, hl⟩
    · exact .inl ⟨n, r, List.mem_append_right _ h⟩
    · exact .inr ⟨n, p, e, List.mem_append_right _ h, hl⟩

theorem sawEnd_nil : ¬ SawEnd ([] : List (Nat × Prom.Ev E)) := by
  rintro (⟨_, _, h⟩ | ⟨_, _, _, h, _⟩) <;> cases h

theorem sawEnd_future (now : Nat) (p : FutPoll E) : SawEnd [(now, Prom.Ev.future p)] ↔ ∃ r, p = .ok r true := by
  constructor
  · rintro (⟨_, r, h⟩ | ⟨_, _, _, h, _⟩)
    · simp at h; exact ⟨r, h.2.symm⟩
    · simp at h
  · rintro ⟨r, rfl⟩; exact .inl ⟨now, r, by simp⟩

theorem sawEnd_body (now : Nat) (p : BodyPoll E) : SawEnd [(now, Prom.Ev.body p)] ↔ ∃ eos, LastPoll p eos := by
  constructor
  · rintro (⟨_, r, h⟩ | ⟨_, q, eos, h, hl⟩)
    · simp at h
    · simp at h; obtain ⟨-, rfl⟩ := h; exact ⟨eos, hl⟩
  · rintro ⟨eos, h⟩; exact .inr ⟨now, p, eos, by simp, h⟩

theorem sawEnd_drop (now : Nat) : ¬ SawEnd [(now, (Prom.Ev.drop : Prom.Ev E))] := by
  rintro (⟨_, _, h⟩ | ⟨_, _, _, h, _⟩) <;> simp at h

/-- A frame that is not data ends a body. -/
theorem sawEnd_of_frame (evs : List (Nat × Prom.Ev E)) (x : Polled E) (h : x ∈ framesOf evs) (hx : ∀ d, x ≠ .data d) : SawEnd evs := by
  unfold framesOf at h
  obtain ⟨⟨n, ev⟩, h1, h2⟩ := List.mem_filterMap.1 h
  cases ev with
  | body p =>
    obtain ⟨p, e⟩ := p
    cases p with
    | data d => simp at h2; exact absurd h2.symm (hx d)
    | trailers t => exact .inr ⟨n, _, _, h1, .trailers t e⟩
    | err x => exact .inr ⟨n, _, _, h1, .error x e⟩
    | pending => simp at h2
    | done => simp at h2
  | _ => simp at h2

theorem forOne_drops (now a : Nat) (l : List (Nat × Prom.Ev E)) (h : ∀ e ∈ l, e.2 = .drop) :
    framesOf (forOne now a l) = [] ∧ ¬ SawEnd (forOne now a l) := by
  have hf : ∀ e ∈ forOne now a l, e.2 = .drop := by
    intro e he
    unfold forOne at he
    obtain ⟨x, hx, rfl⟩ := List.mem_map.1 he
    exact h x (List.mem_filter.1 hx).1
  constructor
  · unfold framesOf
    rw [List.filterMap_eq_nil_iff]
    intro e he
    rw [hf e he]
  · rintro (⟨_, _, h1⟩ | ⟨_, _, _, h1, _⟩)
    · have := hf _ h1; cases this
    · have := hf _ h1; cases this

theorem release_drops (prev : Option (Kept E)) : ∀ e ∈ (prev.map Kept.release).getD [], e.2 = .drop := by
  intro e he
  cases prev with
  | none => simp at he
  | some k =>
    cases k with
    | err x => simp [Kept.release] at he
    | rsp r b =>
      simp only [Option.map_some, Option.getD_some, Kept.release, Held.release, List.mem_map] at he
      obtain ⟨_, _, rfl⟩ := he
      rfl

theorem unneeded_drops (a : Nat) (h : Held E) : ∀ e ∈ unneeded a h, e.2 = .drop := by
  intro e he
  unfold unneeded at he
  split at he <;> simp at he
  rw [he]

/-! ## What a request has of a body -/

def Quiet (evs : List (Nat × Prom.Ev E)) : Prop := framesOf evs = [] ∧ ¬ SawEnd evs

/-- What is held, with what the route has seen, is what was seen of the last attempt. -/
structure Holding (attempts : List Nat) (bt : Nat → Option (List (Nat × Prom.Ev E))) (revs : List (Nat × Prom.Ev E)) (h : Held E) (a : Nat)
    (b : List (Nat × Prom.Ev E)) : Prop where
  last : attempts.getLast? = some a
  got : bt a = some b
  frames : framesOf revs ++ h.buf = framesOf b
  inner : h.inner = some a ∨ (h.inner = none ∧ SawEnd b)
  shape : ∀ x ∈ h.buf.dropLast, ∃ d, x = Polled.data d
  ended : SawEnd revs → h.buf = [] ∧ SawEnd b

def Content (s : Stage E) (attempts : List Nat) (revs : List (Nat × Prom.Ev E)) (bt : Nat → Option (List (Nat × Prom.Ev E))) : Prop :=
  match s with
  | .fresh => Quiet revs
  | .sending none _ => Quiet revs
  | .sending (some a) _ => Quiet revs ∧ attempts.getLast? = some a ∧ ∃ b, bt a = some b ∧ framesOf b = []
  | .peeking a _ first _ => Quiet revs ∧ attempts.getLast? = some a ∧ ∃ b, bt a = some b ∧ framesOf b = first.toList ∧ ∀ x, first = some x → ∃ d, x = .data d
  | .deciding (.err _) => Quiet revs
  | .resting (.err _) => Quiet revs
  | .deciding (.rsp _ h) => Quiet revs ∧ ∃ a b, Holding attempts bt revs h a b
  | .resting (.rsp _ h) => Quiet revs ∧ ∃ a b, Holding attempts bt revs h a b
  | .given h => ∃ a b, Holding attempts bt revs h a b
  | .over => Quiet revs ∨ ∃ a b, attempts.getLast? = some a ∧ bt a = some b ∧ framesOf revs <+: framesOf b ∧
      (SawEnd revs → framesOf revs = framesOf b ∧ SawEnd b)

theorem quiet_append (a b : List (Nat × Prom.Ev E)) (ha : Quiet a) (hb : Quiet b) : Quiet (a ++ b) := by
  refine ⟨by rw [framesOf_append, ha.1, hb.1]; rfl, ?_⟩
  rw [sawEnd_append]
  exact fun h => h.elim ha.2 hb.2

theorem quiet_nil : Quiet ([] : List (Nat × Prom.Ev E)) := ⟨rfl, sawEnd_nil⟩

theorem quiet_err (now : Nat) (e : E) : Quiet [(now, Prom.Ev.future (.err e))] :=
  ⟨rfl, fun h => by obtain ⟨r, hr⟩ := (sawEnd_future _ _).1 h; cases hr⟩

theorem quiet_drop (now : Nat) : Quiet [(now, (Prom.Ev.drop : Prom.Ev E))] := ⟨rfl, sawEnd_drop now⟩

/-- What a step does to what was seen of attempts. -/
structure Seen (now : Nat) (bt bt' : Nat → Option (List (Nat × Prom.Ev E))) (l : List (Nat × Prom.Ev E)) : Prop where
  mono : ∀ a b, bt a = some b → bt' a = some (b ++ forOne now a l)

theorem holding_same (attempts : List Nat) (bt bt' : Nat → Option (List (Nat × Prom.Ev E))) (revs : List (Nat × Prom.Ev E)) (h : Held E) (a now : Nat)
    (b : List (Nat × Prom.Ev E)) (l : List (Nat × Prom.Ev E)) (hs : Seen now bt bt' l) (hd : ∀ e ∈ l, e.2 = .drop) (hh : Holding attempts bt revs h a b) :
    Holding attempts bt' revs h a (b ++ forOne now a l) := by
  obtain ⟨d1, -⟩ := forOne_drops now a l hd
  refine ⟨hh.last, hs.mono _ _ hh.got, by rw [framesOf_append, d1, List.append_nil]; exact hh.frames, ?_, hh.shape, ?_⟩
  · rcases hh.inner with h | ⟨h, hb⟩
    · exact .inl h
    · exact .inr ⟨h, (sawEnd_append _ _).2 (.inl hb)⟩
  · intro hr
    obtain ⟨h1, h2⟩ := hh.ended hr
    exact ⟨h1, (sawEnd_append _ _).2 (.inl h2)⟩

/-- If only bodies are dropped, nothing more is seen of any. -/
theorem content_same (s : Stage E) (attempts : List Nat) (revs : List (Nat × Prom.Ev E)) (bt bt' : Nat → Option (List (Nat × Prom.Ev E))) (now : Nat)
    (l : List (Nat × Prom.Ev E)) (hs : Seen now bt bt' l) (hd : ∀ e ∈ l, e.2 = .drop) (h : Content s attempts revs bt) : Content s attempts revs bt' := by
  have fr : ∀ a b, framesOf (b ++ forOne now a l) = framesOf b := by
    intro a b; rw [framesOf_append, (forOne_drops now a l hd).1, List.append_nil]
  cases s with
  | fresh => exact h
  | sending cur prev =>
    cases cur with
    | none => exact h
    | some a =>
      obtain ⟨h1, h2, b, h3, h4⟩ := h
      exact ⟨h1, h2, _, hs.mono _ _ h3, by rw [fr]; exact h4⟩
  | peeking a r first prev =>
    obtain ⟨h1, h2, b, h3, h4, h5⟩ := h
    exact ⟨h1, h2, _, hs.mono _ _ h3, by rw [fr]; exact h4, h5⟩
  | deciding k =>
    cases k with
    | err e => exact h
    | rsp r k =>
      obtain ⟨h1, a, b, h2⟩ := h
      exact ⟨h1, a, _, holding_same _ _ _ _ _ _ now _ l hs hd h2⟩
  | resting k =>
    cases k with
    | err e => exact h
    | rsp r k =>
      obtain ⟨h1, a, b, h2⟩ := h
      exact ⟨h1, a, _, holding_same _ _ _ _ _ _ now _ l hs hd h2⟩
  | given k =>
    obtain ⟨a, b, h2⟩ := h
    exact ⟨a, _, holding_same _ _ _ _ _ _ now _ l hs hd h2⟩
  | over =>
    rcases h with h | ⟨a, b, h1, h2, h3, h4⟩
    · exact .inl h
    · refine .inr ⟨a, _, h1, hs.mono _ _ h2, by rw [fr]; exact h3, ?_⟩
      intro hr
      obtain ⟨h5, h6⟩ := h4 hr
      exact ⟨by rw [fr]; exact h5, (sawEnd_append _ _).2 (.inl h6)⟩

theorem getLast?_mem_dropLast {A : Type} (x : A) (xs : List A) (h : xs ≠ []) : x ∈ (x :: xs).dropLast := by
  cases xs with
  | nil => exact absurd rfl h
  | cons y ys => simp [List.dropLast]

theorem dropLast_sub {A : Type} (x y : A) (xs : List A) (h : y ∈ xs.dropLast) : y ∈ (x :: xs).dropLast := by
  cases xs with
  | nil => simp at h
  | cons z zs => simp only [List.dropLast_cons_cons, List.mem_cons]; exact .inr h

/-- What is held ends where the attempt's body does. -/
theorem held_end (inner : Nat → Bool) (attempts : List Nat) (bt : Nat → Option (List (Nat × Prom.Ev E))) (revs : List (Nat × Prom.Ev E)) (h : Held E) (a : Nat)
    (b b' : List (Nat × Prom.Ev E)) (hh : Holding attempts bt revs h a b) (hb : SawEnd b → SawEnd b') (hin : inner a = true → SawEnd b')
    (he : h.isEndStream inner = true) : h.buf = [] ∧ SawEnd b' := by
  obtain ⟨buf, i⟩ := h
  cases buf with
  | cons x xs => simp [Held.isEndStream] at he
  | nil =>
    refine ⟨rfl, ?_⟩
    rcases hh.inner with h1 | ⟨h1, h2⟩
    · simp only at h1; subst h1
      exact hin (by simpa [Held.isEndStream] using he)
    · exact hb h2

/-- A result is given. -/
theorem content_give (inner : Nat → Bool) (now : Nat) (k : Kept E) (attempts : List Nat) (revs : List (Nat × Prom.Ev E))
    (bt : Nat → Option (List (Nat × Prom.Ev E))) (hin : ∀ a b, bt a = some b → inner a = true → SawEnd b)
    (h : Content (.deciding k) attempts revs bt) :
    Content (give inner k).1 attempts (revs ++ (give inner k).2.map (now, ·)) bt := by
  cases k with
  | err e => exact .inl (quiet_append _ _ h (quiet_err now e))
  | rsp r k =>
    obtain ⟨h1, a, b, h2⟩ := h
    refine ⟨a, b, h2.last, h2.got, ?_, h2.inner, h2.shape, ?_⟩
    · show framesOf (revs ++ [(now, Prom.Ev.future _)]) ++ _ = _
      rw [framesOf_append]
      simpa [framesOf] using h2.frames
    · intro hs
      rcases (sawEnd_append _ _).1 hs with hs | hs
      · exact absurd hs h1.2
      · obtain ⟨r', hr⟩ := (sawEnd_future _ _).1 hs
        simp only [FutPoll.ok.injEq] at hr
        exact held_end inner attempts bt revs k a b b h2 id (hin a b h2.got) hr.2

/-- What is asked of one step. -/
def StepContent (fil : Rsp → Rsp) (inner : Nat → Bool) (sent now : Nat) (f : Flight E) (ev : Ev B E) : Prop :=
  ∀ (revs : List (Nat × Prom.Ev E)) (bt bt' : Nat → Option (List (Nat × Prom.Ev E))), Content f.stage f.attempts revs bt →
    Seen now bt bt' (f.step fil inner sent ev).2.backend → ((f.step fil inner sent ev).2.calls ≠ [] → bt' sent = some []) →
    (∀ a b, bt a = some b → inner a = true → SawEnd (b ++ forOne now a (tells f ev))) →
    Content (f.step fil inner sent ev).1.stage (f.step fil inner sent ev).1.attempts (revs ++ (f.step fil inner sent ev).2.route.map (now, ·)) bt'

theorem stays_content (fil : Rsp → Rsp) (inner : Nat → Bool) (sent now : Nat) (f : Flight E) (ev : Ev B E)
    (h : f.step fil inner sent ev = (f, {})) : StepContent fil inner sent now f ev := by
  intro revs bt bt' hc hs _ _
  rw [h] at hs ⊢
  simp only [List.map_nil, List.append_nil]
  exact content_same _ _ _ _ _ now [] hs (by simp) hc

theorem start_content (fil : Rsp → Rsp) (inner : Nat → Bool) (sent now : Nat) (f : Flight E) (t : Option B) :
    StepContent fil inner sent now f (.start t) := by
  obtain ⟨retry, tries, attempts, stage⟩ := f
  cases stage with
  | fresh =>
    intro revs bt bt' hc hs hn _
    cases t with
    | none => simpa [Flight.step, Content] using hc
    | some b =>
      have := hn (by simp [Flight.step])
      simp only [Flight.step, Content, Option.map_some, List.map_nil, List.append_nil, Option.toList_some]
      exact ⟨hc, by simp, [], this, rfl⟩
  | _ => exact stays_content fil inner sent now _ _ rfl

theorem drop_content (fil : Rsp → Rsp) (inner : Nat → Bool) (sent now : Nat) (f : Flight E) :
    StepContent fil inner sent now f (.drop : Ev B E) := by
  obtain ⟨retry, tries, attempts, stage⟩ := f
  intro revs bt bt' hc hs _ _
  have hd : ∀ s : Stage E, ∀ e ∈ s.holds.map (·, (Prom.Ev.drop : Prom.Ev E)), e.2 = .drop := by
    intro s e he
    obtain ⟨_, _, rfl⟩ := List.mem_map.1 he
    rfl
  cases stage with
  | over => exact stays_content (B := B) fil inner sent now ⟨retry, tries, attempts, .over⟩ .drop rfl revs bt bt' hc hs (by simp [Flight.step]) (by assumption)
  | given k =>
    have hc := content_same _ _ _ bt bt' now _ hs (hd (.given k)) hc
    obtain ⟨a, b, h⟩ := hc
    refine .inr ⟨a, b, h.last, h.got, ?_, ?_⟩
    · show framesOf (revs ++ [(now, Prom.Ev.drop)]) <+: _
      rw [framesOf_append]
      exact ⟨k.buf, by simpa [framesOf] using h.frames⟩
    · intro hsw
      rcases (sawEnd_append _ _).1 hsw with hsw | hsw
      · obtain ⟨h1, h2⟩ := h.ended hsw
        have := h.frames
        rw [h1, List.append_nil] at this
        refine ⟨?_, h2⟩
        show framesOf (revs ++ [(now, Prom.Ev.drop)]) = _
        rw [framesOf_append, ← this]
        simp [framesOf]
      · exact absurd hsw (sawEnd_drop now)
  | sending cur prev =>
    have hq : Quiet revs := by
      cases cur with
      | none => exact hc
      | some a => exact hc.1
    exact .inl (quiet_append _ _ hq (quiet_drop now))
  | peeking a r first prev => exact .inl (quiet_append _ _ hc.1 (quiet_drop now))
  | fresh => exact .inl (quiet_append _ _ hc (quiet_drop now))
  | deciding k =>
    have hq : Quiet revs := by
      cases k with
      | err e => exact hc
      | rsp r h => exact hc.1
    exact .inl (quiet_append _ _ hq (quiet_drop now))
  | resting k =>
    have hq : Quiet revs := by
      cases k with
      | err e => exact hc
      | rsp r h => exact hc.1
    exact .inl (quiet_append _ _ hq (quiet_drop now))

theorem nothing_told (now : Nat) (bt bt' : Nat → Option (List (Nat × Prom.Ev E))) (hs : Seen now bt bt' []) (inner : Nat → Bool)
    (s : Stage E) (attempts : List Nat) (revs : List (Nat × Prom.Ev E)) (h : Content s attempts revs bt) : Content s attempts revs bt' :=
  content_same s attempts revs bt bt' now [] hs (by simp) h

theorem decide_content (fil : Rsp → Rsp) (inner : Nat → Bool) (sent now : Nat) (f : Flight E) (r c : Bool) :
    StepContent fil inner sent now f (.decide r c : Ev B E) := by
  obtain ⟨retry, tries, attempts, stage⟩ := f
  cases stage with
  | deciding k =>
    intro revs bt bt' hc hs _ hin
    have hin : ∀ a b, bt a = some b → inner a = true → SawEnd b := by
      intro a b hb hi
      have := hin a b hb hi
      simpa [tells, forOne] using this
    have hg : Content (give inner k).1 attempts (revs ++ (give inner k).2.map (now, ·)) bt := content_give inner now k attempts revs bt hin hc
    have hr : Content (.resting k) attempts revs bt := by
      cases k <;> exact hc
    have he : (Flight.step (B := B) fil inner sent ⟨retry, tries, attempts, .deciding k⟩ (.decide r c)).2.backend = [] := by
      simp only [Flight.step]; (repeat' split) <;> rfl
    rw [he] at hs
    simp only [Flight.step]
    (repeat' split)
    all_goals first
      | exact nothing_told now bt bt' hs inner _ _ _ hg
      | simpa using nothing_told now bt bt' hs inner _ _ _ hr
  | _ => exact stays_content fil inner sent now _ _ rfl

theorem wake_content (fil : Rsp → Rsp) (inner : Nat → Bool) (sent now : Nat) (f : Flight E) (wk : Wake B E) :
    StepContent fil inner sent now f (.wake wk) := by
  obtain ⟨retry, tries, attempts, stage⟩ := f
  cases stage with
  | resting k =>
    intro revs bt bt' hc hs hn hin
    have hq : Quiet revs := by
      cases k with
      | err e => exact hc
      | rsp r h => exact hc.1
    have hd : Content (.deciding k) attempts revs bt := by
      cases k <;> exact hc
    have hin' : ∀ a b, bt a = some b → inner a = true → SawEnd b := by
      intro a b hb hi
      have := hin a b hb hi
      simpa [tells, forOne] using this
    cases wk with
    | busy => exact nothing_told now bt bt' hs inner _ _ _ (content_give inner now k attempts revs bt hin' hd)
    | failed e => exact .inl (quiet_append _ _ hq (quiet_err now e))
    | ready t =>
      cases t with
      | none => simpa [Flight.step, Content] using hq
      | some b =>
        have := hn (by simp [Flight.step])
        simp only [Flight.step, Content, Option.map_some, List.map_nil, List.append_nil, Option.toList_some]
        exact ⟨hq, by simp, [], this, rfl⟩
  | _ => exact stays_content fil inner sent now _ _ rfl

theorem frames_future (now : Nat) (p : FutPoll E) : framesOf [(now, Prom.Ev.future p)] = [] := rfl

theorem forOne_self (now a : Nat) (ev : Prom.Ev E) (l : List (Nat × Prom.Ev E)) (hd : ∀ e ∈ l, e.2 = .drop) :
    framesOf (forOne now a ((a, ev) :: l)) = framesOf [(now, ev)] ∧ (SawEnd [(now, ev)] → SawEnd (forOne now a ((a, ev) :: l))) := by
  rw [forOne_cons, if_pos rfl]
  have : (now, ev) :: forOne now a l = [(now, ev)] ++ forOne now a l := rfl
  rw [this]
  refine ⟨by rw [framesOf_append, (forOne_drops now a l hd).1, List.append_nil], fun h => (sawEnd_append _ _).2 (.inl h)⟩

theorem answer_content (fil : Rsp → Rsp) (inner : Nat → Bool) (sent now : Nat) (f : Flight E) (p : FutPoll E) (nt : Bool) :
    StepContent fil inner sent now f (.answer p nt : Ev B E) := by
  obtain ⟨retry, tries, attempts, stage⟩ := f
  cases stage with
  | sending cur prev =>
    intro revs bt bt' hc hs _ hin
    have hq : Quiet revs := by
      cases cur with
      | none => exact hc
      | some a => exact hc.1
    cases p with
    | pending =>
      cases cur with
      | none => simpa [Flight.step, Content] using hq
      | some a =>
        obtain ⟨-, h2, b, h3, h4⟩ := hc
        simp only [Flight.step, List.map_nil, List.append_nil]
        refine ⟨hq, h2, _, hs.mono a b h3, ?_⟩
        simp only [Flight.step, Option.toList_some, List.map_cons, List.map_nil]
        rw [framesOf_append, h4, (forOne_self now a _ [] (by simp)).1]; rfl
    | err e =>
      simp only [Flight.step]
      split
      · exact .inl (quiet_append _ _ hq (quiet_err now e))
      · simpa [Content] using hq
    | ok r ended =>
      cases cur with
      | none => simpa [Flight.step, Content] using hq
      | some a =>
        obtain ⟨-, h2, b, h3, h4⟩ := hc
        have hin' := hin a b h3
        simp only [tells, Option.toList_some, List.map_cons, List.map_nil] at hin'
        simp only [Flight.step, Option.toList_some, List.map_cons, List.map_nil] at hs ⊢
        split
        · next hr =>
          rw [if_pos hr] at hs
          refine ⟨a, _, h2, hs.mono a b h3, ?_, .inl rfl, by simp, ?_⟩
          · rw [framesOf_append, framesOf_append, h4, (forOne_self now a _ [] (by simp)).1, hq.1]; rfl
          · intro hsw
            rcases (sawEnd_append _ _).1 hsw with hsw | hsw
            · exact absurd hsw hq.2
            · obtain ⟨r', hr'⟩ := (sawEnd_future _ _).1 hsw
              simp only [FutPoll.ok.injEq] at hr'
              exact ⟨rfl, hin' hr'.2⟩
        · next hr =>
          rw [if_neg hr] at hs
          cases hp : peekNone (E := E) a nt (inner a) with
          | none =>
            rw [hp] at hs
            simp only [List.map_nil, List.append_nil]
            refine ⟨hq, h2, _, hs.mono a b h3, ?_, by simp⟩
            rw [framesOf_append, h4, (forOne_self now a _ [] (by simp)).1]; rfl
          | some k =>
            rw [hp] at hs
            simp only [List.map_nil, List.append_nil]
            simp only [List.cons_append, List.nil_append] at hs
            have hd : ∀ e ∈ unneeded a k ++ (prev.map Kept.release).getD [], e.2 = .drop := by
              intro e he
              rcases List.mem_append.1 he with he | he
              · exact unneeded_drops a k e he
              · exact release_drops prev e he
            have hf := forOne_self now a (Prom.Ev.future (.ok r ended)) _ hd
            have hk : k.buf = [] ∧ (k.inner = some a ∨ (k.inner = none ∧ inner a = true)) := by
              unfold peekNone at hp
              split at hp
              · cases hp; exact ⟨rfl, .inl rfl⟩
              · split at hp
                · next hi => cases hp; exact ⟨rfl, .inr ⟨rfl, hi⟩⟩
                · cases hp
            refine ⟨hq, a, _, h2, hs.mono a b h3, ?_, ?_, by rw [hk.1]; simp, fun hsw => absurd hsw hq.2⟩
            · rw [framesOf_append, h4, hf.1, hq.1, hk.1]; rfl
            · rcases hk.2 with h | ⟨h, hi⟩
              · exact .inl h
              · refine .inr ⟨h, ?_⟩
                have := hin' hi
                rw [forOne_cons, if_pos rfl, forOne_nil] at this
                rw [forOne_cons, if_pos rfl]
                have e : b ++ (now, Prom.Ev.future (.ok r ended)) :: forOne now a (unneeded a k ++ (prev.map Kept.release).getD []) =
                    (b ++ [(now, Prom.Ev.future (.ok r ended))]) ++ forOne now a (unneeded a k ++ (prev.map Kept.release).getD []) := by simp
                rw [e]
                exact (sawEnd_append _ _).2 (.inl this)
  | _ => exact stays_content fil inner sent now _ _ rfl

/-- What a poll shows of a body. -/
def polledFrame : Polled E → List (Polled E)
  | .data d => [.data d]
  | .trailers t => [.trailers t]
  | .err e => [.err e]
  | _ => []

theorem frames_body (now : Nat) (p : BodyPoll E) : framesOf [(now, Prom.Ev.body p)] = polledFrame p.polled := by
  obtain ⟨p, e⟩ := p
  cases p <;> rfl

theorem frames_polled (evs : List (Nat × Prom.Ev E)) (x : Polled E) (h : x ∈ framesOf evs) : polledFrame x = [x] := by
  unfold framesOf at h
  obtain ⟨⟨n, ev⟩, -, h2⟩ := List.mem_filterMap.1 h
  cases ev with
  | body p =>
    obtain ⟨p, e⟩ := p
    cases p <;> simp at h2 <;> subst h2 <;> rfl
  | _ => simp at h2

theorem peeked_content (inner : Nat → Bool) (now : Nat) (attempts : List Nat) (a : Nat) (r : Rsp) (p : BodyPoll E) (k : Held E) (prev : Option (Kept E))
    (revs : List (Nat × Prom.Ev E)) (bt bt' : Nat → Option (List (Nat × Prom.Ev E))) (hq : Quiet revs) (h2 : attempts.getLast? = some a)
    (b : List (Nat × Prom.Ev E)) (h3 : bt a = some b) (hs : Seen now bt bt' ([(a, .body p)] ++ unneeded a k ++ (prev.map Kept.release).getD []))
    (hb : k.buf = framesOf b ++ polledFrame p.polled) (hi : k.inner = some a ∨ (k.inner = none ∧ ∃ eos, LastPoll p eos))
    (hsh : ∀ x ∈ k.buf.dropLast, ∃ d, x = Polled.data d) : Content (.deciding (.rsp r k)) attempts revs bt' := by
  have hd : ∀ e ∈ unneeded a k ++ (prev.map Kept.release).getD [], e.2 = .drop := by
    intro e he
    rcases List.mem_append.1 he with he | he
    · exact unneeded_drops a k e he
    · exact release_drops prev e he
  have hf := forOne_self now a (Prom.Ev.body p) _ hd
  rw [List.append_assoc, List.singleton_append] at hs
  refine ⟨hq, a, _, h2, hs.mono a b h3, ?_, ?_, hsh, fun hsw => absurd hsw hq.2⟩
  · rw [framesOf_append, hf.1, hq.1, frames_body, hb]; rfl
  · rcases hi with h | ⟨h, hl⟩
    · exact .inl h
    · exact .inr ⟨h, (sawEnd_append _ _).2 (.inr (hf.2 ((sawEnd_body _ _).2 hl)))⟩

theorem body_content (fil : Rsp → Rsp) (inner : Nat → Bool) (sent now : Nat) (f : Flight E) (p : BodyPoll E) :
    StepContent fil inner sent now f (.body p : Ev B E) := by
  obtain ⟨retry, tries, attempts, stage⟩ := f
  cases stage with
  | peeking a r first prev =>
    intro revs bt bt' hc hs _ hin
    obtain ⟨hq, h2, b, h3, h4, h5⟩ := hc
    cases first with
    | none =>
      simp only [Option.toList_none] at h4
      obtain ⟨pp, ended⟩ := p
      cases pp with
      | pending =>
        simp only [Flight.step, peekFirst, List.map_nil, List.append_nil] at hs ⊢
        refine ⟨hq, h2, _, hs.mono a b h3, ?_, by simp⟩
        rw [framesOf_append, h4, (forOne_self now a _ [] (by simp)).1]; rfl
      | data d =>
        simp only [Flight.step, peekFirst, List.map_nil, List.append_nil] at hs ⊢
        refine ⟨hq, h2, _, hs.mono a b h3, ?_, fun x hx => ⟨d, by cases hx; rfl⟩⟩
        rw [framesOf_append, h4, (forOne_self now a _ [] (by simp)).1]; rfl
      | done =>
        simp only [Flight.step, peekFirst, List.map_nil, List.append_nil] at hs ⊢
        exact peeked_content inner now attempts a r _ _ prev revs bt bt' hq h2 b h3 hs (by rw [h4]; rfl) (.inr ⟨rfl, _, .done ended⟩) (by simp)
      | trailers t =>
        simp only [Flight.step, peekFirst, List.map_nil, List.append_nil] at hs ⊢
        exact peeked_content inner now attempts a r _ _ prev revs bt bt' hq h2 b h3 hs (by rw [h4]; rfl) (.inr ⟨rfl, _, .trailers t ended⟩) (by simp)
      | err e =>
        simp only [Flight.step, peekFirst, List.map_nil, List.append_nil] at hs ⊢
        exact peeked_content inner now attempts a r _ _ prev revs bt bt' hq h2 b h3 hs (by rw [h4]; rfl) (.inr ⟨rfl, _, .error e ended⟩) (by simp)
    | some x =>
      obtain ⟨d0, rfl⟩ := h5 x rfl
      simp only [Option.toList_some] at h4
      obtain ⟨pp, ended⟩ := p
      simp only [Flight.step, List.map_nil, List.append_nil] at hs ⊢
      refine peeked_content inner now attempts a r _ _ prev revs bt bt' hq h2 b h3 hs ?_ ?_ ?_
      · rw [h4]; cases pp <;> rfl
      · cases pp with
        | pending => exact .inl rfl
        | data d => exact .inl rfl
        | done => exact .inr ⟨rfl, _, .done ended⟩
        | trailers t => exact .inr ⟨rfl, _, .trailers t ended⟩
        | err e => exact .inr ⟨rfl, _, .error e ended⟩
      · cases pp <;> simp [peekSecond]
  | given k =>
    intro revs bt bt' hc hs _ hin
    obtain ⟨a, b, h⟩ := hc
    obtain ⟨buf, i⟩ := k
    cases buf with
    | cons x xs =>
      simp only [Flight.step] at hs ⊢
      have hxs : polledFrame x = [x] := frames_polled b x (by rw [← h.frames]; simp)
      refine ⟨a, _, h.last, hs.mono a b h.got, ?_, ?_, fun y hy => h.shape y (dropLast_sub x y xs hy), ?_⟩
      · show framesOf (revs ++ [(now, Prom.Ev.body ⟨x, _⟩)]) ++ xs = _
        rw [forOne_nil, List.append_nil, framesOf_append, frames_body, hxs, ← h.frames]; simp
      · rw [forOne_nil, List.append_nil]; exact h.inner
      · intro hsw
        rw [forOne_nil, List.append_nil]
        rcases (sawEnd_append _ _).1 hsw with hsw | hsw
        · have := (h.ended hsw).1; cases this
        · obtain ⟨eos, hl⟩ := (sawEnd_body _ _).1 hsw
          have hin' := hin a b h.got
          simp only [tells, forOne_nil, List.append_nil] at hin'
          by_cases hx : ∃ d, x = .data d
          · obtain ⟨d, rfl⟩ := hx
            have he : Held.isEndStream inner ⟨xs, i⟩ = true := by
              generalize Held.isEndStream inner ⟨xs, i⟩ = e at hl
              cases hl; rfl
            cases xs with
            | cons y ys => simp [Held.isEndStream] at he
            | nil =>
              refine ⟨rfl, ?_⟩
              rcases h.inner with hi | ⟨hi, hb⟩
              · simp only at hi; subst hi
                exact hin' (by simpa [Held.isEndStream] using he)
              · exact hb
          · refine ⟨?_, sawEnd_of_frame b x (by rw [← h.frames]; simp) (fun d e => hx ⟨d, e⟩)⟩
            show xs = []
            by_cases hxs' : xs = []
            · exact hxs'
            · exact absurd (h.shape x (getLast?_mem_dropLast x xs hxs')) hx
    | nil =>
      have hfr : framesOf revs = framesOf b := by have := h.frames; simpa using this
      cases i with
      | none =>
        simp only [Flight.step] at hs ⊢
        have hb : SawEnd b := by
          rcases h.inner with hi | ⟨-, hb⟩
          · cases hi
          · exact hb
        refine ⟨a, _, h.last, hs.mono a b h.got, ?_, .inr ⟨rfl, ?_⟩, by simp, fun _ => ⟨rfl, ?_⟩⟩
        · rw [forOne_nil, List.append_nil, framesOf_append, hfr]; simp [framesOf]
        · rw [forOne_nil, List.append_nil]; exact hb
        · rw [forOne_nil, List.append_nil]; exact hb
      | some a' =>
        have ha : a' = a := by
          rcases h.inner with hi | ⟨hi, -⟩
          · simpa using hi
          · cases hi
        subst ha
        simp only [Flight.step] at hs ⊢
        have hf := forOne_self now a' (Prom.Ev.body p) [] (by simp)
        refine ⟨a', _, h.last, hs.mono a' b h.got, ?_, .inl rfl, by simp, fun hsw => ⟨rfl, ?_⟩⟩
        · show framesOf (revs ++ [(now, Prom.Ev.body ⟨p.polled, _⟩)]) ++ [] = _
          rw [framesOf_append, framesOf_append, hf.1, frames_body, frames_body, hfr]; simp
        · rcases (sawEnd_append _ _).1 hsw with hsw | hsw
          · exact (sawEnd_append _ _).2 (.inl (h.ended hsw).2)
          · obtain ⟨eos, hl⟩ := (sawEnd_body _ _).1 hsw
            by_cases hi : inner a' = true
            · simpa [tells] using hin a' b h.got hi
            · refine (sawEnd_append _ _).2 (.inr (hf.2 ((sawEnd_body _ _).2 ?_)))
              obtain ⟨pp, ended⟩ := p
              have hi : inner a' = false := by simpa using hi
              rw [hi] at hl
              cases hl with
              | trailers t _ => exact ⟨_, .trailers t ended⟩
              | error e _ => exact ⟨_, .error e ended⟩
              | done _ => exact ⟨_, .done ended⟩
  | _ => exact stays_content fil inner sent now _ _ rfl

theorem step_content (fil : Rsp → Rsp) (inner : Nat → Bool) (sent now : Nat) (f : Flight E) (ev : Ev B E) :
    StepContent fil inner sent now f ev := by
  cases ev with
  | start t => exact start_content fil inner sent now f t
  | answer p nt => exact answer_content fil inner sent now f p nt
  | body p => exact body_content fil inner sent now f p
  | decide r c => exact decide_content fil inner sent now f r c
  | wake w => exact wake_content fil inner sent now f w
  | drop => exact drop_content fil inner sent now f

/-! ## All requests -/

/-- A body that a recorder says has ended has. -/
theorem ended_seen (lab : Labeler B E S L) (c : E) (t0 : Nat) (q : B) (evs : List (Nat × Prom.Ev E)) (b : EosBody S)
    (h : states (statusStep lab c) (statusStart lab t0 q) evs = .streaming b) (hb : b.isEndStream = true) : SawEnd evs := by
  induction evs using snoc_induction generalizing b with
  | nil =>
    simp only [states, statusStart] at h
    split at h <;> cases h
  | snoc evs e ih =>
    rw [states_snoc] at h
    obtain ⟨n, ev⟩ := e
    have old : states (statusStep lab c) (statusStart lab t0 q) evs = .streaming b → SawEnd (evs ++ [(n, ev)]) :=
      fun h => (sawEnd_append _ _).2 (.inl (ih b h hb))
    cases hst : states (statusStep lab c) (statusStart lab t0 q) evs with
    | passthru =>
      rw [hst] at h
      cases ev <;> simp [statusStep] at h
    | gone =>
      rw [hst] at h
      cases ev <;> simp [statusStep] at h
    | waiting s =>
      rw [hst] at h
      cases ev with
      | future p =>
        cases p with
        | pending => simp [statusStep] at h
        | err e => simp [statusStep] at h
        | ok r ended =>
          cases ended with
          | true => exact (sawEnd_append _ _).2 (.inr ((sawEnd_future _ _).2 ⟨r, rfl⟩))
          | false =>
            simp only [statusStep, EosBody.new, Bool.false_eq_true, if_false, Flow.streaming.injEq] at h
            subst h
            cases hb
      | _ => simp [statusStep] at h
    | streaming b0 =>
      rw [hst] at h
      cases ev with
      | body p =>
        cases he : eosRef p with
        | some eos => exact (sawEnd_append _ _).2 (.inr ((sawEnd_body _ _).2 ⟨eos, (lastPoll_iff p eos).2 he⟩))
        | none =>
          simp only [statusStep, EosBody.poll, he, Flow.streaming.injEq] at h
          exact old (by rw [hst, h])
      | drop => simp [statusStep] at h
      | future p =>
        cases p <;> (simp only [statusStep, Flow.streaming.injEq] at h; exact old (by rw [hst, h]))
      | reqPoll e => simp only [statusStep, Flow.streaming.injEq] at h; exact old (by rw [hst, h])
      | reqDrop => simp only [statusStep, Flow.streaming.injEq] at h; exact old (by rw [hst, h])

theorem bodyEnded_seen (lab : Labeler B E S L) (c : E) (log : List (Prom.Op B E)) (a : Nat) (t : Transcript B E) (ht : (transcripts log)[a]? = some t)
    (h : bodyEnded lab c log a = true) : SawEnd t.2.2 := by
  unfold bodyEnded at h
  rw [(run_sys (statusStart lab) (statusStep lab c) log).1, List.getElem?_map, ht] at h
  simp only [Option.map_some] at h
  split at h
  · next b hb =>
    simp only [Option.some.injEq] at hb
    exact ended_seen lab c t.1 t.2.1 t.2.2 b hb h
  · cases h

theorem content_congr (s : Stage E) (attempts : List Nat) (revs : List (Nat × Prom.Ev E)) (bt bt' : Nat → Option (List (Nat × Prom.Ev E)))
    (hs : ∀ a ∈ attempts, ∀ b, bt a = some b → bt' a = some b) (h : Content s attempts revs bt) : Content s attempts revs bt' := by
  have hh : ∀ k a b, Holding attempts bt revs k a b → Holding attempts bt' revs k a b := fun k a b h =>
    ⟨h.last, hs a (List.mem_of_getLast? h.last) b h.got, h.frames, h.inner, h.shape, h.ended⟩
  cases s with
  | fresh => exact h
  | sending cur prev =>
    cases cur with
    | none => exact h
    | some a =>
      obtain ⟨h1, h2, b, h3, h4⟩ := h
      exact ⟨h1, h2, b, hs a (List.mem_of_getLast? h2) b h3, h4⟩
  | peeking a r first prev =>
    obtain ⟨h1, h2, b, h3, h4⟩ := h
    exact ⟨h1, h2, b, hs a (List.mem_of_getLast? h2) b h3, h4⟩
  | deciding k =>
    cases k with
    | err e => exact h
    | rsp r k =>
      obtain ⟨h1, a, b, h2⟩ := h
      exact ⟨h1, a, b, hh _ _ _ h2⟩
  | resting k =>
    cases k with
    | err e => exact h
    | rsp r k =>
      obtain ⟨h1, a, b, h2⟩ := h
      exact ⟨h1, a, b, hh _ _ _ h2⟩
  | given k =>
    obtain ⟨a, b, h2⟩ := h
    exact ⟨a, b, hh _ _ _ h2⟩
  | over =>
    rcases h with h | ⟨a, b, h1, h2, h3⟩
    · exact .inl h
    · exact .inr ⟨a, b, h1, hs a (List.mem_of_getLast? h1) b h2, h3⟩

/-- What was seen of an attempt. -/
def seenOf (log : List (Prom.Op B E)) (a : Nat) : Option (List (Nat × Prom.Ev E)) := (transcripts log)[a]?.map (·.2.2)

def Contents (w : World Q B E) : Prop :=
  ∀ (i : Nat) (x : Q × Flight E) (t : Transcript Q E), w.flights[i]? = some x → (transcripts w.routeLog)[i]? = some t →
    Content x.2.stage x.2.attempts t.2.2 (seenOf w.backendLog)

theorem contents_step [DecidableEq Q] (fil : Q → Rsp → Rsp) (lab : Labeler B E S L) (cancelled : E) (w : World Q B E) (h : Inv fil w) (hc : Contents w)
    (act : Act Q B E) : Contents (w.step fil lab cancelled act) := by
  cases act with
  | call now q retry =>
    intro i x t hx ht
    simp only [World.step] at hx ht ⊢
    rw [transcripts_call] at ht
    by_cases hi : i < w.flights.length
    · rw [List.getElem?_append_left hi] at hx
      rw [List.getElem?_append_left (by rw [h.rlen]; exact hi)] at ht
      exact hc i x t hx ht
    · rw [List.getElem?_append_right (by omega)] at hx
      rw [List.getElem?_append_right (by rw [h.rlen]; omega)] at ht
      have e1 := List.mem_of_getElem? hx
      have e2 := List.mem_of_getElem? ht
      simp only [List.mem_singleton] at e1 e2
      subst e1; subst e2
      exact quiet_nil
  | on i now ev =>
    cases hi : w.flights[i]? with
    | none =>
      have : w.step fil lab cancelled (.on i now ev) = w := by simp [World.step, hi]
      rw [this]; exact hc
    | some x0 =>
      obtain ⟨q, f⟩ := x0
      have hlt := lt_of_getElem?_some hi
      have ok := step_ok (fil q) (bodyEnded lab cancelled (w.backendLog ++ told now (tells f ev))) w.sent now f (h.wf i _ hi) (by
        intro a ha
        obtain ⟨t, ht, -⟩ := h.role i _ hi a (h.holds i _ hi a ha)
        rw [← h.sent]; exact lt_of_getElem?_some ht) ev
      have sc := step_content (fil q) (bodyEnded lab cancelled (w.backendLog ++ told now (tells f ev))) w.sent now f ev
      have hw : w.step fil lab cancelled (.on i now ev) = w.step fil lab cancelled (.on i now ev) := rfl
      conv at hw => rhs; unfold World.step
      simp only [hi] at hw
      rw [hw]
      unfold StepContent at sc
      generalize f.step (fil q) (bodyEnded lab cancelled (w.backendLog ++ told now (tells f ev))) w.sent ev = fo at *
      obtain ⟨f', o⟩ := fo
      dsimp only at ok sc ⊢
      have hnd : (w.flights.flatMap (·.2.attempts)).Nodup := h.perm.nodup_iff.2 List.nodup_range
      have mono : ∀ a b, seenOf w.backendLog a = some b →
          seenOf (w.backendLog ++ told now o.backend ++ o.calls.map (.call now)) a = some (b ++ forOne now a o.backend) := by
        intro a b hb
        unfold seenOf at hb ⊢
        cases ht : (transcripts w.backendLog)[a]? with
        | none => rw [ht] at hb; cases hb
        | some t =>
          rw [ht] at hb
          cases hb
          rw [backend_get _ now o.backend o.calls a t ht]
          rfl
      intro j x t hx ht
      dsimp only at hx ht ⊢
      rw [route_eq, told_get, forOne_route] at ht
      by_cases hij : i = j
      · subst hij
        rw [List.getElem?_set_self hlt] at hx
        cases hx
        rw [if_pos rfl] at ht
        obtain ⟨rt, h1, -⟩ := h.req i _ hi
        rw [h1] at ht
        cases ht
        refine sc rt.2.2 (seenOf w.backendLog) _ (hc i _ rt hi h1) ⟨mono⟩ ?_ ?_
        · intro hne
          rcases ok.calls with ⟨h2, -⟩ | ⟨b, h2, -⟩
          · exact absurd h2 hne
          · unfold seenOf
            rw [calls_eq, List.getElem?_append_right (by rw [told_length, h.sent]; exact Nat.le_refl _), told_length, h.sent, h2]
            simp
        · intro a b hb hin
          unfold seenOf at hb
          cases hta : (transcripts w.backendLog)[a]? with
          | none => rw [hta] at hb; cases hb
          | some ta =>
            rw [hta] at hb
            cases hb
            have e := told_get (Q := B) now a (tells f ev) w.backendLog
            rw [hta] at e
            exact bodyEnded_seen lab cancelled _ a _ e hin
      · rw [List.getElem?_set_ne hij] at hx
        rw [if_neg hij] at ht
        obtain ⟨rt, h1, -⟩ := h.req j _ hx
        rw [h1] at ht
        simp only [Option.map_some, List.append_nil, Option.some.injEq] at ht
        subst ht
        refine content_congr _ _ _ (seenOf w.backendLog) _ ?_ (hc j x rt hx h1)
        intro a ha b hb
        rw [mono a b hb]
        have hno := disjoint_of (fun x : Q × Flight E => x.2.attempts) _ hnd j i x (q, f) (fun e => hij e.symm) hx hi a ha
        have : forOne now a o.backend = [] := by
          unfold forOne
          rw [List.map_eq_nil_iff, List.filter_eq_nil_iff]
          intro e he hea
          simp only [decide_eq_true_eq] at hea
          exact hno (by rw [← hea]; exact h.holds i _ hi _ (ok.targets e he))
        rw [this, List.append_nil]

theorem contents_run [DecidableEq Q] (fil : Q → Rsp → Rsp) (lab : Labeler B E S L) (cancelled : E) (acts : List (Act Q B E)) :
    Contents (World.run fil lab cancelled acts) := by
  unfold World.run
  have : ∀ (w : World Q B E), Inv fil w → Contents w → Contents (acts.foldl (World.step fil lab cancelled) w) := by
    induction acts with
    | nil => exact fun w _ h => h
    | cons a acts ih => exact fun w h hc => ih _ (inv_step fil lab cancelled w h a) (contents_step fil lab cancelled w h hc a)
  refine this _ (inv_init fil) ?_
  intro i x t hx
  simp at hx

/-! ## Properties -/

/-- C121. The body that a client reads is the body of the last attempt: the recorder of the route sees the frames that the recorder of the backend saw of it, in order, and sees the body
end only if the recorder of the backend did, after all the frames. Nothing of the bodies of other attempts is mixed in, whatever was read of them before. -/
theorem C121_bodies_agree [DecidableEq Q] (fil : Q → Rsp → Rsp) (lab : Labeler B E S L) (cancelled : E) (acts : List (Act Q B E))
    (i : Nat) (x : Q × Flight E) (t : Transcript Q E) (r : Rsp) :
    let w := World.run fil lab cancelled acts
    w.flights[i]? = some x → (transcripts w.routeLog)[i]? = some t → Answered t r →
    ∃ a, (attemptsOf w x.2).getLast? = some a ∧ framesOf t.2.2 <+: framesOf a.2.2 ∧
      (SawEnd t.2.2 → framesOf t.2.2 = framesOf a.2.2 ∧ SawEnd a.2.2) := by
  intro w hx ht hr
  have hinv : Inv fil w := inv_run fil lab cancelled acts
  have hc : Contents w := contents_run fil lab cancelled acts
  obtain ⟨t', h1, -, -, h4⟩ := hinv.req i x hx
  rw [h1] at ht
  cases ht
  obtain ⟨hroute, n, r0, a, h5, h6, -⟩ := h4 r hr
  have hlast : (attemptsOf w x.2).getLast? = some a := by
    unfold attemptsOf
    obtain ⟨l, hl⟩ := List.getLast?_eq_some_iff.1 h5
    rw [hl, List.filterMap_append]
    simp [h6]
  refine ⟨a, hlast, ?_⟩
  have hcx := hc i x t hx h1
  have same : ∀ n' b, x.2.attempts.getLast? = some n' → seenOf w.backendLog n' = some b → b = a.2.2 := by
    intro n' b hn hb
    rw [h5] at hn
    cases hn
    unfold seenOf at hb
    rw [h6] at hb
    cases hb
    rfl
  cases hst : x.2.stage with
  | given k =>
    rw [hst] at hcx
    obtain ⟨n', b, hh⟩ := hcx
    obtain rfl := same n' b hh.last hh.got
    refine ⟨⟨k.buf, hh.frames⟩, ?_⟩
    intro hs
    obtain ⟨e1, e2⟩ := hh.ended hs
    have := hh.frames
    rw [e1, List.append_nil] at this
    exact ⟨this, e2⟩
  | over =>
    rw [hst] at hcx
    rcases hcx with hq | ⟨n', b, e1, e2, e3⟩
    · exact ⟨by rw [hq.1]; exact List.nil_prefix, fun hs => absurd hs hq.2⟩
    · obtain rfl := same n' b e1 e2
      exact e3
  | _ => rw [hst] at hroute; exact absurd rfl hroute

/-! ## Examples -/

/-- The second attempt's body is read to look for trailers, given back to the client from there, and then read on. -/
def exBodies : List (Act Nat Nat String) :=
  exFirst ++ [.on 0 8 (.answer (.ok ⟨200, []⟩ false) false), .on 0 9 (.body ⟨.data [3], false⟩), .on 0 10 (.body ⟨.pending, false⟩),
    .on 0 11 (.decide false false), .on 0 12 (.body ⟨.pending, false⟩), .on 0 13 (.body ⟨.data [4], false⟩), .on 0 14 (.body ⟨.trailers [], true⟩)]

example : ((transcripts (exRun exBodies).routeLog).map fun t => framesOf t.2.2) = [[.data [3], .data [4], .trailers []], []] ∧
    ((transcripts (exRun exBodies).backendLog).map fun t => framesOf t.2.2) = [[.data [1], .data [2]], [], [.data [3], .data [4], .trailers []]] ∧
    (exRun exBodies).flights.map (·.2.attempts) = [[0, 2], [1]] := by decide +kernel

example : ∃ t r, (transcripts (exRun exBodies).routeLog)[0]? = some t ∧ Answered t r ∧ SawEnd t.2.2 := by
  refine ⟨_, ⟨200, []⟩, rfl, ⟨11, false, by decide +kernel⟩, .inr ⟨14, ⟨.trailers [], true⟩, .trailers [], by decide +kernel, .trailers [] true⟩⟩

end Verif.RetryMetrics
