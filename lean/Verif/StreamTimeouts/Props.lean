import Verif.StreamTimeouts.Model

/-!
# C48: stream timeouts fire when due and never early
-/

namespace Verif.StreamTimeouts

/-! ## Specification: what an observer of the stream sees -/

/-- `activity`: when something last came through, or the stream began. `ended`: when the request body was polled to its
end. `gone`: the request body was dropped. `start`: the time from which the timeouts of the response count, once they do:
the end of the request, noticed when the response is polled (a body that was just dropped ends when that is noticed), or
the arrival of the response's headers if that is earlier. `response`: the headers arrived. `reqFailed`, `rspFailed`: a
deadline has failed that body already. -/
structure Seen where
  clock : Nat
  activity : Nat
  ended : Option Nat
  gone : Bool
  start : Option Nat
  response : Bool
  reqFailed : Bool
  rspFailed : Bool

/-- A timeout that is not for idleness. -/
def Out.isDeadline : Out → Bool
  | .timeout (.idle _) => false
  | .timeout _ => true
  | _ => false

/-- The start, as of a poll of the response. -/
def Seen.noticed (s : Seen) (now : Nat) : Option Nat :=
  match s.start with
  | some t => some t
  | none =>
    match s.ended with
    | some t => some t
    | none => if s.gone then some now else none

def see (s : Seen) : Op × Out → Seen
  | (_, .absent) => s
  | (.pollReq now (some e), _) =>
    { s with clock := now, activity := now, ended := if e then s.ended.or (some now) else s.ended }
  | (.pollReq now none, out) => { s with clock := now, reqFailed := s.reqFailed || out.isDeadline }
  | (.dropReq, _) => { s with gone := true }
  | (.pollRsp now inner, _) =>
    match inner with
    | some true =>
      { s with clock := now, activity := now, start := some ((s.noticed now).getD now), response := true }
    | _ => { s with clock := now, start := s.noticed now }
  | (.pollBody now true, _) => { s with clock := now, activity := now }
  | (.pollBody now false, out) => { s with clock := now, rspFailed := s.rspFailed || out.isDeadline }

/-- What is seen of a history of a stream that began at `t0`. -/
def seen (t0 : Nat) (evs : List (Op × Out)) : Seen :=
  evs.foldl see ⟨t0, t0, none, false, none, false, false, false⟩

def Op.time : Op → Option Nat
  | .pollReq now _ => some now
  | .dropReq => none
  | .pollRsp now _ => some now
  | .pollBody now _ => some now

/-- The histories of streams, in which time does not go back. -/
inductive Hist (cfg : Timeouts) (t0 : Nat) : List (Op × Out) → State → Prop where
  | nil : Hist cfg t0 [] (init cfg t0)
  | snoc (evs : List (Op × Out)) (st : State) (h : Hist cfg t0 evs st) (o : Op)
    (ht : ∀ t, o.time = some t → (seen t0 evs).clock ≤ t) : Hist cfg t0 (evs ++ [(o, (step st o).2)]) (step st o).1

/-! ## Invariant -/

theorem seen_snoc (t0 : Nat) (evs : List (Op × Out)) (e : Op × Out) : seen t0 (evs ++ [e]) = see (seen t0 evs) e := by
  simp [seen]

/-- The channel, by what was seen. -/
def chanOf (s : Seen) : Chan :=
  match s.ended with
  | some t => .value t
  | none => if s.gone then .closed else .empty

/-- The deadline of a waiting response. -/
def waitDeadline (cfg : Timeouts) (start : Option Nat) : Option Deadline :=
  match start with
  | none => lifetimeDeadline cfg
  | some t => headersDeadline cfg t (lifetimeDeadline cfg)

structure Inv (cfg : Timeouts) (s : Seen) (st : State) : Prop where
  cfg_eq : st.cfg = cfg
  alive : st.reqAlive = !s.gone
  sender : st.sender = (s.ended.isNone && !s.gone)
  chan : st.chan = chanOf s
  stamp : cfg.idle.isSome → st.stamp = s.activity
  activity : s.activity ≤ s.clock
  fresh : s.response = false → s.rspFailed = false
  reqDeadline : st.reqDeadline = if s.reqFailed then none else lifetimeDeadline cfg
  reqSleep : ∀ i, cfg.idle = some i → st.reqSleep ≤ s.activity + i
  phase : match st.phase with
    | .waiting d l f => d = waitDeadline cfg s.start ∧ l = s.start.isNone ∧ f = s.start ∧ s.response = false
    | .body d sleep => (∃ t, s.start = some t ∧ d = if s.rspFailed then none else bodyDeadline cfg t) ∧
        s.response = true ∧ ∀ i, cfg.idle = some i → sleep ≤ s.activity + i
    | .over => True

theorem pollIdle_spec (stamp i sleep now : Nat) (h : sleep ≤ stamp + i) :
    (pollIdle stamp i sleep now).1 = decide (stamp + i ≤ now) ∧ (pollIdle stamp i sleep now).2 ≤ stamp + i := by
  unfold pollIdle
  by_cases h1 : now < sleep
  · rw [if_pos h1]
    exact ⟨by simp; omega, h⟩
  · rw [if_neg h1]
    by_cases h2 : stamp + i ≤ now
    · rw [if_pos h2]; exact ⟨by simp [h2], h⟩
    · rw [if_neg h2]; exact ⟨by simp; omega, Nat.le_refl _⟩

/-- What polling for timeouts answers. -/
inductive Expired (deadline : Option Deadline) (idle : Option Nat) (activity now : Nat) : Option Err → Prop where
  | deadline (d : Deadline) (h : deadline = some d) (hd : d.dueAt ≤ now) : Expired deadline idle activity now (some d.error)
  | idle (i : Nat) (h : idle = some i) (hd : activity + i ≤ now) (hn : ∀ d, deadline = some d → now < d.dueAt) :
    Expired deadline idle activity now (some (.idle i))
  | none (hd : ∀ d, deadline = some d → now < d.dueAt) (hi : ∀ i, idle = some i → now < activity + i) :
    Expired deadline idle activity now none

theorem pollBodyTimeout_spec (deadline : Option Deadline) (idle : Option Nat) (stamp sleep now activity : Nat)
    (hs : idle.isSome → stamp = activity) (hl : ∀ i, idle = some i → sleep ≤ activity + i) :
    Expired deadline idle activity now (pollBodyTimeout deadline idle stamp sleep now).1 ∧
      (∀ i, idle = some i → (pollBodyTimeout deadline idle stamp sleep now).2.2 ≤ activity + i) ∧
        (pollBodyTimeout deadline idle stamp sleep now).2.1 =
          (if ∃ d, deadline = some d ∧ d.dueAt ≤ now then none else deadline) := by
  have only : ∀ dl : Option Deadline, (∀ d, dl = some d → now < d.dueAt) →
      Expired dl idle activity now (pollBodyTimeout.pollIdleOnly dl idle stamp sleep now).1 ∧
      (∀ i, idle = some i → (pollBodyTimeout.pollIdleOnly dl idle stamp sleep now).2.2 ≤ activity + i) ∧
        (pollBodyTimeout.pollIdleOnly dl idle stamp sleep now).2.1 = dl := by
    intro dl hn
    cases idle with
    | none => exact ⟨.none hn (by simp), by simp, rfl⟩
    | some i =>
      have hst : stamp = activity := hs rfl
      subst hst
      obtain ⟨p1, p2⟩ := pollIdle_spec stamp i sleep now (hl i rfl)
      simp only [pollBodyTimeout.pollIdleOnly, p1]
      refine ⟨?_, by simpa using p2, by simp⟩
      by_cases h : stamp + i ≤ now
      · simp only [h, decide_true, if_true]; exact .idle i rfl h hn
      · simp only [h, decide_false, Bool.false_eq_true, if_false]
        exact .none hn (by intro j hj; simp only [Option.some.injEq] at hj; omega)
  unfold pollBodyTimeout
  cases deadline with
  | none =>
    obtain ⟨h1, h2, h3⟩ := only none (by simp)
    exact ⟨h1, h2, by simpa using h3⟩
  | some d =>
    dsimp only
    by_cases hd : d.dueAt ≤ now
    · rw [if_pos hd]
      exact ⟨.deadline d rfl hd, hl, by simp [hd]⟩
    · rw [if_neg hd]
      obtain ⟨h1, h2, h3⟩ := only (some d) (by intro x hx; simp only [Option.some.injEq] at hx; subst hx; omega)
      exact ⟨h1, h2, by rw [h3]; simp [hd]⟩

theorem lifetime_error (cfg : Timeouts) (d : Deadline) (h : lifetimeDeadline cfg = some d) :
    ∃ l, cfg.limit = some (d.dueAt, l) ∧ d.error = .lifetime l := by
  unfold lifetimeDeadline at h
  cases hl : cfg.limit with
  | none => simp [hl] at h
  | some l =>
    simp [hl] at h
    subst h
    exact ⟨l.2, rfl, rfl⟩

theorem bodyDeadline_error (cfg : Timeouts) (t : Nat) (d : Deadline) (h : bodyDeadline cfg t = some d) :
    (∃ l, cfg.limit = some (d.dueAt, l) ∧ d.error = .lifetime l) ∨
      (∃ e, cfg.responseEnd = some e ∧ d.dueAt = t + e ∧ d.error = .response e) := by
  unfold bodyDeadline at h
  cases he : cfg.responseEnd with
  | none =>
    cases hl : cfg.limit with
    | none => simp [he, hl] at h
    | some l => simp [he, hl] at h; subst h; exact .inl ⟨l.2, rfl, rfl⟩
  | some e =>
    cases hl : cfg.limit with
    | none => simp [he, hl] at h; subst h; exact .inr ⟨e, rfl, rfl, rfl⟩
    | some l =>
      simp only [he, hl] at h
      split at h <;> simp at h <;> subst h
      · exact .inr ⟨e, rfl, rfl, rfl⟩
      · exact .inl ⟨l.2, rfl, rfl⟩

/-- Whether a timeout is a deadline. -/
theorem isDeadline_of_expired (deadline : Option Deadline) (idle : Option Nat) (activity now : Nat) (r : Option Err)
    (h : Expired deadline idle activity now r) (hk : ∀ d, deadline = some d → ∀ i, d.error ≠ .idle i) :
    ((toOut r).isDeadline = true ↔ ∃ d, deadline = some d ∧ d.dueAt ≤ now) := by
  cases h with
  | deadline d h hd =>
    have := hk d h
    cases he : d.error with
    | idle i => exact absurd he (this i)
    | _ => simp [Out.isDeadline, toOut]; exact ⟨d, h, hd⟩
  | idle i h hd hn =>
    simp [Out.isDeadline, toOut]
    intro d hd'; exact hn d hd'
  | none hd hi =>
    simp [Out.isDeadline, toOut]
    intro d hd'; exact hd d hd'

theorem inv_init (cfg : Timeouts) (t0 : Nat) : Inv cfg (seen t0 []) (init cfg t0) where
  cfg_eq := rfl
  alive := rfl
  sender := rfl
  chan := rfl
  stamp := fun _ => rfl
  activity := Nat.le_refl _
  fresh := fun _ => rfl
  reqDeadline := rfl
  reqSleep := by intro i hi; simp [init, hi, seen]
  phase := ⟨rfl, rfl, rfl, rfl⟩

/-- What is noticed. -/
theorem noticeFlush_spec (cfg : Timeouts) (s : Seen) (now : Nat) :
    noticeFlush cfg (chanOf s) now (waitDeadline cfg s.start) s.start.isNone s.start =
      (waitDeadline cfg (s.noticed now), (s.noticed now).isNone, s.noticed now) := by
  unfold noticeFlush Seen.noticed chanOf waitDeadline
  cases hs : s.start with
  | some t => simp
  | none =>
    cases he : s.ended with
    | some t => simp
    | none =>
      cases hg : s.gone <;> simp

theorem inv_step (cfg : Timeouts) (s : Seen) (st : State) (o : Op) (hi : Inv cfg s st)
    (ht : ∀ t, o.time = some t → s.clock ≤ t) : Inv cfg (see s (o, (step st o).2)) (step st o).1 := by
  have hact := hi.activity
  cases o with
  | dropReq =>
    cases hg : s.gone with
    | true =>
      have ha : st.reqAlive = false := by rw [hi.alive, hg]; rfl
      simpa [step, ha, see] using hi
    | false =>
      have ha : st.reqAlive = true := by rw [hi.alive, hg]; rfl
      simp only [step, ha, if_true, see]
      refine ⟨hi.cfg_eq, rfl, by simp, ?_, hi.stamp, hi.activity, hi.fresh, hi.reqDeadline, hi.reqSleep, hi.phase⟩
      simp only [hi.sender, hi.chan, chanOf, hg]
      cases s.ended <;> simp
  | pollReq now inner =>
    have htime : s.clock ≤ now := ht now rfl
    cases hg : s.gone with
    | true =>
      have ha : st.reqAlive = false := by rw [hi.alive, hg]; rfl
      simpa [step, ha, see] using hi
    | false =>
      have ha : st.reqAlive = true := by rw [hi.alive, hg]; rfl
      cases inner with
      | some e =>
        simp only [step, ha, if_true, see]
        refine ⟨hi.cfg_eq, by simp [ha, hg], ?_, ?_, ?_, Nat.le_refl _, hi.fresh, hi.reqDeadline, ?_, ?_⟩
        · simp only [hi.sender, hg]
          cases e <;> cases s.ended <;> simp
        · simp only [hi.sender, hi.chan, chanOf, hg]
          cases e <;> cases s.ended <;> simp
        · intro h; simp [hi.cfg_eq, h]
        · intro i h; simp [hi.cfg_eq, h]
        · have := hi.phase
          cases hp : st.phase with
          | waiting d l f => simp only [hp] at this ⊢; exact this
          | body d sl =>
            simp only [hp] at this ⊢
            refine ⟨this.1, this.2.1, ?_⟩
            intro i h
            have := this.2.2 i h
            omega
          | over => trivial
      | none =>
        obtain ⟨p1, p2, p3⟩ := pollBodyTimeout_spec st.reqDeadline st.cfg.idle st.stamp st.reqSleep now s.activity
          (by rw [hi.cfg_eq]; exact hi.stamp) (by rw [hi.cfg_eq]; exact hi.reqSleep)
        have hk : ∀ d, st.reqDeadline = some d → ∀ i, d.error ≠ .idle i := by
          intro d hd i
          rw [hi.reqDeadline] at hd
          cases hf : s.reqFailed with
          | true => simp [hf] at hd
          | false =>
            simp only [hf, Bool.false_eq_true, if_false] at hd
            obtain ⟨l, -, he⟩ := lifetime_error cfg d hd
            rw [he]; simp
        have hdl := isDeadline_of_expired _ _ _ _ _ p1 hk
        have hsee : see s (.pollReq now none, (step st (.pollReq now none)).2) =
            { s with clock := now, reqFailed := s.reqFailed || ((step st (.pollReq now none)).2).isDeadline } := by
          have : (step st (.pollReq now none)).2 ≠ .absent := by
            simp only [step, ha, if_true]; unfold toOut; split <;> simp
          generalize (step st (.pollReq now none)).2 = out at this ⊢
          cases out <;> first | rfl | exact absurd rfl this
        rw [hsee]
        simp only [step, ha, if_true]
        refine ⟨hi.cfg_eq, by simp [hg, ha], by simpa using hi.sender, by simpa [chanOf] using hi.chan, hi.stamp, by simp; omega, hi.fresh, ?_,
          ?_, hi.phase⟩
        · simp only
          rw [p3, hi.reqDeadline]
          rw [hi.reqDeadline] at hdl
          cases hf : s.reqFailed with
          | true => simp
          | false =>
            simp only [hf, Bool.false_eq_true, if_false, Bool.false_or] at hdl ⊢
            by_cases hx : ∃ d, lifetimeDeadline cfg = some d ∧ d.dueAt ≤ now
            · rw [if_pos hx, if_pos (hdl.2 hx)]
            · rw [if_neg hx, if_neg (fun h => hx (hdl.1 h))]
        · intro i h
          exact p2 i (by rw [hi.cfg_eq]; exact h)
  | pollRsp now inner =>
    have htime : s.clock ≤ now := ht now rfl
    cases hp : st.phase with
    | over => simpa [step, hp, see] using hi
    | body d sl => simpa [step, hp, see] using hi
    | waiting d l f =>
      have hph := hi.phase
      simp only [hp] at hph
      obtain ⟨rfl, rfl, rfl, hr⟩ := hph
      have hn := noticeFlush_spec cfg s now
      simp only [step, hp, hi.cfg_eq, hi.chan, hn]
      have hgen : ∀ ph, Inv cfg { s with clock := now, start := s.noticed now } { st with phase := ph } ↔
          (match ph with
            | .waiting d l f => d = waitDeadline cfg (s.noticed now) ∧ l = (s.noticed now).isNone ∧ f = s.noticed now ∧
                s.response = false
            | .body d sleep => (∃ t, s.noticed now = some t ∧ d = if s.rspFailed then none else bodyDeadline cfg t) ∧
                s.response = true ∧ ∀ i, cfg.idle = some i → sleep ≤ s.activity + i
            | .over => True) := by
        intro ph
        constructor
        · intro h
          have := h.phase
          exact this
        · intro h
          exact ⟨hi.cfg_eq, hi.alive, hi.sender, by simpa [chanOf] using hi.chan, hi.stamp, by simp; omega,
            hi.fresh, hi.reqDeadline, hi.reqSleep, h⟩
      cases inner with
      | none =>
        cases hd : waitDeadline cfg (s.noticed now) with
        | none =>
          simp only [pollInner, see]
          exact (hgen _).2 ⟨hd.symm, rfl, rfl, hr⟩
        | some d =>
          simp only [pollInner]
          by_cases hdue : d.dueAt ≤ now
          · simp only [hdue, if_true, see]
            exact (hgen _).2 trivial
          · simp only [hdue, if_false, see]
            exact (hgen _).2 ⟨hd.symm, rfl, rfl, hr⟩
      | some ok =>
        cases ok with
        | false =>
          simp only [pollInner, see]
          exact (hgen _).2 trivial
        | true =>
          simp only [pollInner, see]
          have hrf : s.rspFailed = s.rspFailed := rfl
          refine ⟨hi.cfg_eq, hi.alive, hi.sender, by simpa [chanOf] using hi.chan, ?_, by simp, by simp, hi.reqDeadline, ?_, ?_⟩
          · intro h; simp [hi.cfg_eq, h]
          · intro i h
            have := hi.reqSleep i h
            simp only; omega
          · refine ⟨⟨_, rfl, ?_⟩, rfl, ?_⟩
            · simp [hi.fresh hr, hi.cfg_eq]
            · intro i h; simp [hi.cfg_eq, h]
  | pollBody now ready =>
    have htime : s.clock ≤ now := ht now rfl
    cases hp : st.phase with
    | over => simpa [step, hp, see] using hi
    | waiting d l f => simpa [step, hp, see] using hi
    | body d sl =>
      have hph := hi.phase
      simp only [hp] at hph
      obtain ⟨⟨t, hst, hd⟩, hr, hsl⟩ := hph
      cases ready with
      | true =>
        simp only [step, hp, if_true, see]
        refine ⟨hi.cfg_eq, hi.alive, hi.sender, by simpa [chanOf] using hi.chan, ?_, Nat.le_refl _, hi.fresh,
          hi.reqDeadline, ?_, ⟨t, hst, hd⟩, hr, ?_⟩
        · intro h; simp [hi.cfg_eq, h]
        · intro i h
          have := hi.reqSleep i h
          simp only; omega
        · intro i h; simp [hi.cfg_eq, h]
      | false =>
        obtain ⟨p1, p2, p3⟩ := pollBodyTimeout_spec d st.cfg.idle st.stamp sl now s.activity
          (by rw [hi.cfg_eq]; exact hi.stamp) (by rw [hi.cfg_eq]; exact hsl)
        have hk : ∀ x, d = some x → ∀ i, x.error ≠ .idle i := by
          intro x hx i
          rw [hd] at hx
          cases hf : s.rspFailed with
          | true => simp [hf] at hx
          | false =>
            simp only [hf, Bool.false_eq_true, if_false] at hx
            rcases bodyDeadline_error cfg t x hx with ⟨l, -, he⟩ | ⟨e, -, -, he⟩ <;> rw [he] <;> simp
        have hdl := isDeadline_of_expired _ _ _ _ _ p1 hk
        have hsee : see s (.pollBody now false, (step st (.pollBody now false)).2) =
            { s with clock := now, rspFailed := s.rspFailed || ((step st (.pollBody now false)).2).isDeadline } := by
          have : (step st (.pollBody now false)).2 ≠ .absent := by
            simp only [step, hp, Bool.false_eq_true, if_false]; unfold toOut; split <;> simp
          generalize (step st (.pollBody now false)).2 = out at this ⊢
          cases out <;> first | rfl | exact absurd rfl this
        rw [hsee]
        simp only [step, hp, Bool.false_eq_true, if_false]
        refine ⟨hi.cfg_eq, hi.alive, hi.sender, by simpa [chanOf] using hi.chan, hi.stamp, by simp; omega,
          by simp [hr], hi.reqDeadline, hi.reqSleep, ⟨t, hst, ?_⟩, hr, ?_⟩
        · simp only
          rw [p3]
          subst hd
          cases hf : s.rspFailed with
          | true => simp
          | false =>
            simp only [hf, Bool.false_eq_true, if_false, Bool.false_or] at hdl ⊢
            by_cases hx : ∃ y, bodyDeadline cfg t = some y ∧ y.dueAt ≤ now
            · rw [if_pos hx, if_pos (hdl.2 hx)]
            · rw [if_neg hx, if_neg (fun h => hx (hdl.1 h))]
        · intro i h
          exact p2 i (by rw [hi.cfg_eq]; exact h)

theorem inv_hist (cfg : Timeouts) (t0 : Nat) (evs : List (Op × Out)) (st : State) (h : Hist cfg t0 evs st) :
    Inv cfg (seen t0 evs) st := by
  induction h with
  | nil => exact inv_init cfg t0
  | snoc evs st h o ht ih =>
    rw [seen_snoc]
    exact inv_step cfg _ st o ih ht

/-! ## The property -/

/-- Why a stream may be failed, at a time: its lifetime is over; the response's headers have not come within the time
allowed since the request's end; the response has not ended within the time allowed; or nothing has come through in
either direction for the idle time. -/
inductive Justified (cfg : Timeouts) (before after : Seen) (now : Nat) : Err → Prop where
  | lifetime (d l : Nat) (h : cfg.limit = some (d, l)) (hd : d ≤ now) : Justified cfg before after now (.lifetime l)
  | headers (d s : Nat) (h : cfg.headers = some d) (hs : after.start = some s) (hr : after.response = false)
    (hd : s + d ≤ now) : Justified cfg before after now (.headers d)
  | response (d s : Nat) (h : cfg.responseEnd = some d) (hs : after.start = some s) (hd : s + d ≤ now) :
    Justified cfg before after now (.response d)
  | idle (d : Nat) (h : cfg.idle = some d) (hd : before.activity + d ≤ now) : Justified cfg before after now (.idle d)

theorem waitDeadline_error (cfg : Timeouts) (start : Option Nat) (d : Deadline) (h : waitDeadline cfg start = some d) :
    (∃ l, cfg.limit = some (d.dueAt, l) ∧ d.error = .lifetime l) ∨
      (∃ s t, start = some s ∧ cfg.headers = some t ∧ d.dueAt = s + t ∧ d.error = .headers t) ∨
        (∃ s t, start = some s ∧ cfg.headers = none ∧ cfg.responseEnd = some t ∧ d.dueAt = s + t ∧
          d.error = .response t) := by
  cases start with
  | none => exact .inl (lifetime_error cfg d h)
  | some s =>
    simp only [waitDeadline, headersDeadline] at h
    have main : ∀ t e, (match lifetimeDeadline cfg with
        | some d => if s + t < d.dueAt then some (⟨s + t, e⟩ : Deadline) else some d
        | none => some ⟨s + t, e⟩) = some d →
        (∃ l, cfg.limit = some (d.dueAt, l) ∧ d.error = .lifetime l) ∨ d = ⟨s + t, e⟩ := by
      intro t e h
      cases hl : lifetimeDeadline cfg with
      | none => simp [hl] at h; exact .inr h.symm
      | some x =>
        simp only [hl] at h
        split at h <;> simp at h
        · exact .inr h.symm
        · subst h; exact .inl (lifetime_error cfg x hl)
    cases hh : cfg.headers with
    | some t =>
      have ht : headersTimeout cfg = some (t, .headers t) := by simp [headersTimeout, hh]
      rw [ht] at h
      rcases main t (.headers t) h with h | rfl
      · exact .inl h
      · exact .inr (.inl ⟨s, t, rfl, rfl, rfl, rfl⟩)
    | none =>
      cases he : cfg.responseEnd with
      | some t =>
        have ht : headersTimeout cfg = some (t, .response t) := by simp [headersTimeout, hh, he]
        rw [ht] at h
        rcases main t (.response t) h with h | rfl
        · exact .inl h
        · exact .inr (.inr ⟨s, t, rfl, rfl, rfl, rfl, rfl⟩)
      | none =>
        have ht : headersTimeout cfg = none := by simp [headersTimeout, hh, he]
        rw [ht] at h
        exact .inl (lifetime_error cfg d h)

/-- The deadline that holds while the response is awaited is no later than any of those it stands for. -/
theorem waitDeadline_le (cfg : Timeouts) (start : Option Nat) (x : Nat)
    (hx : (∃ l, cfg.limit = some (x, l)) ∨ (∃ s t, start = some s ∧ cfg.headers = some t ∧ x = s + t) ∨
      (∃ s t, start = some s ∧ cfg.headers = none ∧ cfg.responseEnd = some t ∧ x = s + t)) :
    ∃ d, waitDeadline cfg start = some d ∧ d.dueAt ≤ x := by
  have hlife : ∀ l, cfg.limit = some (x, l) → lifetimeDeadline cfg = some ⟨x, .lifetime l⟩ := by
    intro l h; simp [lifetimeDeadline, h]
  cases start with
  | none =>
    rcases hx with ⟨l, h⟩ | ⟨s, t, h, -⟩ | ⟨s, t, h, -⟩
    · exact ⟨_, hlife l h, Nat.le_refl _⟩
    · simp at h
    · simp at h
  | some s =>
    have main : ∀ t e, headersTimeout cfg = some (t, e) → ((∃ l, cfg.limit = some (x, l)) ∨ x = s + t) →
        ∃ d, waitDeadline cfg (some s) = some d ∧ d.dueAt ≤ x := by
      intro t e ht h
      simp only [waitDeadline, headersDeadline, ht]
      cases hl : lifetimeDeadline cfg with
      | none =>
        rcases h with ⟨l, h⟩ | rfl
        · rw [hlife l h] at hl; simp at hl
        · exact ⟨_, rfl, Nat.le_refl _⟩
      | some d =>
        dsimp only
        by_cases hc : s + t < d.dueAt
        · rw [if_pos hc]
          refine ⟨_, rfl, ?_⟩
          rcases h with ⟨l, h⟩ | rfl
          · rw [hlife l h] at hl
            simp only [Option.some.injEq] at hl
            subst hl
            simp only at hc ⊢; omega
          · exact Nat.le_refl _
        · rw [if_neg hc]
          refine ⟨_, rfl, ?_⟩
          rcases h with ⟨l, h⟩ | rfl
          · rw [hlife l h] at hl
            simp only [Option.some.injEq] at hl
            subst hl
            exact Nat.le_refl _
          · omega
    cases hh : cfg.headers with
    | some t =>
      have ht : headersTimeout cfg = some (t, .headers t) := by simp [headersTimeout, hh]
      refine main t _ ht ?_
      rcases hx with h | ⟨s', t', h1, h2, h3⟩ | ⟨s', t', h1, h2, -⟩
      · exact .inl h
      · simp only [Option.some.injEq] at h1
        rw [hh] at h2
        simp only [Option.some.injEq] at h2
        exact .inr (by omega)
      · simp [hh] at h2
    | none =>
      cases he : cfg.responseEnd with
      | some t =>
        have ht : headersTimeout cfg = some (t, .response t) := by simp [headersTimeout, hh, he]
        refine main t _ ht ?_
        rcases hx with h | ⟨s', t', h1, h2, h3⟩ | ⟨s', t', h1, h2, h3, h4⟩
        · exact .inl h
        · simp [hh] at h2
        · simp only [Option.some.injEq] at h1
          rw [he] at h3
          simp only [Option.some.injEq] at h3
          exact .inr (by omega)
      | none =>
        have ht : headersTimeout cfg = none := by simp [headersTimeout, hh, he]
        rcases hx with ⟨l, h⟩ | ⟨s', t', h1, h2, h3⟩ | ⟨s', t', h1, h2, h3, h4⟩
        · simp only [waitDeadline, headersDeadline, ht]
          exact ⟨_, hlife l h, Nat.le_refl _⟩
        · simp [hh] at h2
        · simp [he] at h3

/-- Never early: in every history, a stream that is failed is failed for a reason. -/
theorem C48_never_early (cfg : Timeouts) (t0 : Nat) (evs : List (Op × Out)) (st : State) (h : Hist cfg t0 evs st)
    (o : Op) (ht : ∀ t, o.time = some t → (seen t0 evs).clock ≤ t) (e : Err) (he : (step st o).2 = .timeout e) :
    ∃ now, o.time = some now ∧
      Justified cfg (seen t0 evs) (seen t0 (evs ++ [(o, (step st o).2)])) now e := by
  have hi := inv_hist cfg t0 evs st h
  rw [seen_snoc]
  generalize seen t0 evs = s at hi ht ⊢
  have body : ∀ dl sleep now (after : Seen), (∀ i, cfg.idle = some i → sleep ≤ s.activity + i) →
      toOut (pollBodyTimeout dl st.cfg.idle st.stamp sleep now).1 = .timeout e →
      (∀ d, dl = some d → d.dueAt ≤ now → Justified cfg s after now d.error) → Justified cfg s after now e := by
    intro dl sleep now after hsl hout hj
    obtain ⟨p1, -, -⟩ := pollBodyTimeout_spec dl st.cfg.idle st.stamp sleep now s.activity
      (by rw [hi.cfg_eq]; exact hi.stamp) (by rw [hi.cfg_eq]; exact hsl)
    generalize (pollBodyTimeout dl st.cfg.idle st.stamp sleep now).1 = r at p1 hout
    cases p1 with
    | deadline d h hd =>
      simp only [toOut, Out.timeout.injEq] at hout
      subst hout
      exact hj d h hd
    | idle i h hd hn =>
      simp only [toOut, Out.timeout.injEq] at hout
      subst hout
      exact .idle i (by rw [← hi.cfg_eq]; exact h) hd
    | none hd hi => simp [toOut] at hout
  cases o with
  | dropReq => simp only [step] at he; split at he <;> simp at he
  | pollReq now inner =>
    refine ⟨now, rfl, ?_⟩
    simp only [step] at he
    split at he
    · cases inner with
      | some b => simp at he
      | none =>
        refine body _ _ now _ hi.reqSleep he ?_
        intro d hd hdue
        rw [hi.reqDeadline] at hd
        split at hd
        · simp at hd
        · obtain ⟨l, h1, h2⟩ := lifetime_error cfg d hd
          rw [h2]; exact .lifetime _ l h1 hdue
    · simp at he
  | pollRsp now inner =>
    refine ⟨now, rfl, ?_⟩
    cases hp : st.phase with
    | over => simp [step, hp] at he
    | body d sl => simp [step, hp] at he
    | waiting d l f =>
      have hph := hi.phase
      simp only [hp] at hph
      obtain ⟨rfl, rfl, rfl, hr⟩ := hph
      have hn := noticeFlush_spec cfg s now
      simp only [step, hp, hi.cfg_eq, hi.chan, hn] at he ⊢
      cases inner with
      | some b => cases b <;> simp [pollInner] at he
      | none =>
        cases hd : waitDeadline cfg (s.noticed now) with
        | none => simp [pollInner, hd] at he
        | some d =>
          simp only [pollInner, hd] at he ⊢
          by_cases hdue : d.dueAt ≤ now
          · simp only [hdue, if_true, Out.timeout.injEq, see] at he ⊢
            subst he
            rcases waitDeadline_error cfg _ d hd with ⟨l, h1, h2⟩ | ⟨s', t, h1, h2, h3, h4⟩ | ⟨s', t, h1, -, h2, h3, h4⟩
            · rw [h2]; exact .lifetime _ l h1 hdue
            · rw [h4]; exact .headers t s' h2 h1 hr (by omega)
            · rw [h4]; exact .response t s' h2 h1 (by omega)
          · simp [hdue] at he
  | pollBody now ready =>
    refine ⟨now, rfl, ?_⟩
    cases hp : st.phase with
    | over => simp [step, hp] at he
    | waiting d l f => simp [step, hp] at he
    | body d sl =>
      have hph := hi.phase
      simp only [hp] at hph
      obtain ⟨⟨t, hst, hd⟩, hr, hsl⟩ := hph
      cases ready with
      | true => simp [step, hp] at he
      | false =>
        have hstart : (see s (.pollBody now false, (step st (.pollBody now false)).2)).start = some t := by
          have : (step st (.pollBody now false)).2 = .timeout e := he
          rw [this]; exact hst
        simp only [step, hp, Bool.false_eq_true, if_false] at he
        refine body _ _ now _ hsl he ?_
        intro x hx hdue
        rw [hd] at hx
        split at hx
        · simp at hx
        · rcases bodyDeadline_error cfg t x hx with ⟨l, h1, h2⟩ | ⟨y, h1, h2, h3⟩
          · rw [h2]; exact .lifetime _ l h1 hdue
          · rw [h3]; exact .response y t h1 hstart (by omega)

/-- When due, while the response is awaited: a poll of the response that finds nothing fails it if its lifetime is over,
if the request has ended and the headers' time is over, or - without a timeout for the headers - if the response's time
is over. -/
theorem C48_waiting_is_failed_when_due (cfg : Timeouts) (t0 : Nat) (evs : List (Op × Out)) (st : State)
    (h : Hist cfg t0 evs st) (now x : Nat) (hout : (step st (.pollRsp now none)).2 ≠ .absent) (hx : x ≤ now)
    (hd : (∃ l, cfg.limit = some (x, l)) ∨
      (∃ s t, (seen t0 evs).noticed now = some s ∧ cfg.headers = some t ∧ x = s + t) ∨
        (∃ s t, (seen t0 evs).noticed now = some s ∧ cfg.headers = none ∧ cfg.responseEnd = some t ∧ x = s + t)) :
    ∃ e, (step st (.pollRsp now none)).2 = .timeout e := by
  have hi := inv_hist cfg t0 evs st h
  generalize seen t0 evs = s at hi hd
  cases hp : st.phase with
  | over => simp [step, hp] at hout
  | body d sl => simp [step, hp] at hout
  | waiting d l f =>
    have hph := hi.phase
    simp only [hp] at hph
    obtain ⟨rfl, rfl, rfl, hr⟩ := hph
    have hn := noticeFlush_spec cfg s now
    simp only [step, hp, hi.cfg_eq, hi.chan, hn]
    obtain ⟨d, hdl, hle⟩ := waitDeadline_le cfg (s.noticed now) x hd
    simp only [pollInner, hdl]
    rw [if_pos (by omega)]
    exact ⟨_, rfl⟩

/-- When due, for the bodies: a poll of the request body that finds nothing fails it if its lifetime is over (unless it has
failed so already) or if nothing has come through for the idle time. -/
theorem C48_request_is_failed_when_due (cfg : Timeouts) (t0 : Nat) (evs : List (Op × Out)) (st : State)
    (h : Hist cfg t0 evs st) (now : Nat) (hout : (step st (.pollReq now none)).2 ≠ .absent)
    (hd : (∃ x l, cfg.limit = some (x, l) ∧ x ≤ now ∧ (seen t0 evs).reqFailed = false) ∨
      (∃ i, cfg.idle = some i ∧ (seen t0 evs).activity + i ≤ now)) :
    ∃ e, (step st (.pollReq now none)).2 = .timeout e := by
  have hi := inv_hist cfg t0 evs st h
  generalize seen t0 evs = s at hi hd
  have ha : st.reqAlive = true := by
    cases ha : st.reqAlive with
    | true => rfl
    | false => simp [step, ha] at hout
  obtain ⟨p1, -, -⟩ := pollBodyTimeout_spec st.reqDeadline st.cfg.idle st.stamp st.reqSleep now s.activity
    (by rw [hi.cfg_eq]; exact hi.stamp) (by rw [hi.cfg_eq]; exact hi.reqSleep)
  simp only [step, ha, if_true]
  generalize (pollBodyTimeout st.reqDeadline st.cfg.idle st.stamp st.reqSleep now).1 = r at p1
  cases p1 with
  | deadline d h hd => exact ⟨_, rfl⟩
  | idle i h hd hn => exact ⟨_, rfl⟩
  | none h1 h2 =>
    exfalso
    rcases hd with ⟨x, l, hl, hx, hf⟩ | ⟨i, h3, h4⟩
    · have : st.reqDeadline = some ⟨x, .lifetime l⟩ := by rw [hi.reqDeadline, hf]; simp [lifetimeDeadline, hl]
      have := h1 _ this
      simp only at this
      omega
    · have := h2 i (by rw [hi.cfg_eq]; exact h3)
      omega

/-- And so for the response body, which is also failed if the response's time is over. -/
theorem C48_response_is_failed_when_due (cfg : Timeouts) (t0 : Nat) (evs : List (Op × Out)) (st : State)
    (h : Hist cfg t0 evs st) (now : Nat) (hout : (step st (.pollBody now false)).2 ≠ .absent)
    (hd : (∃ x l, cfg.limit = some (x, l) ∧ x ≤ now ∧ (seen t0 evs).rspFailed = false) ∨
      (∃ s e, (seen t0 evs).start = some s ∧ cfg.responseEnd = some e ∧ s + e ≤ now ∧ (seen t0 evs).rspFailed = false) ∨
        (∃ i, cfg.idle = some i ∧ (seen t0 evs).activity + i ≤ now)) :
    ∃ e, (step st (.pollBody now false)).2 = .timeout e := by
  have hi := inv_hist cfg t0 evs st h
  generalize seen t0 evs = s at hi hd
  cases hp : st.phase with
  | over => simp [step, hp] at hout
  | waiting d l f => simp [step, hp] at hout
  | body d sl =>
    have hph := hi.phase
    simp only [hp] at hph
    obtain ⟨⟨t, hst, hdl⟩, hr, hsl⟩ := hph
    obtain ⟨p1, -, -⟩ := pollBodyTimeout_spec d st.cfg.idle st.stamp sl now s.activity
      (by rw [hi.cfg_eq]; exact hi.stamp) (by rw [hi.cfg_eq]; exact hsl)
    simp only [step, hp, Bool.false_eq_true, if_false]
    generalize (pollBodyTimeout d st.cfg.idle st.stamp sl now).1 = r at p1
    cases p1 with
    | deadline d h hd => exact ⟨_, rfl⟩
    | idle i h hd hn => exact ⟨_, rfl⟩
    | none h1 h2 =>
      exfalso
      have le : ∀ x, s.rspFailed = false → x ≤ now →
          ((∃ l, cfg.limit = some (x, l)) ∨ ∃ e, cfg.responseEnd = some e ∧ x = t + e) → False := by
        intro x hf hx hc
        have hb : ∃ y, bodyDeadline cfg t = some y ∧ y.dueAt ≤ x := by
          unfold bodyDeadline
          rcases hc with ⟨l, hl⟩ | ⟨e, he, rfl⟩
          · rw [hl]
            cases cfg.responseEnd with
            | none => exact ⟨_, rfl, Nat.le_refl _⟩
            | some e =>
              dsimp only
              split
              · exact ⟨_, rfl, by simp only; omega⟩
              · exact ⟨_, rfl, Nat.le_refl _⟩
          · rw [he]
            cases cfg.limit with
            | none => exact ⟨_, rfl, Nat.le_refl _⟩
            | some l =>
              dsimp only
              split
              · exact ⟨_, rfl, Nat.le_refl _⟩
              · exact ⟨_, rfl, by simp only; omega⟩
        obtain ⟨y, hy, hyx⟩ := hb
        have := h1 y (by rw [hdl, hf]; simpa using hy)
        omega
      rcases hd with ⟨x, l, hl, hx, hf⟩ | ⟨s', e, hs, he, hx, hf⟩ | ⟨i, h3, h4⟩
      · exact le x hf hx (.inl ⟨l, hl⟩)
      · rw [hst] at hs
        simp only [Option.some.injEq] at hs
        exact le (s' + e) hf hx (.inr ⟨e, he, by omega⟩)
      · have := h2 i (by rw [hi.cfg_eq]; exact h3)
        omega

/-! ## What the timeouts do not do -/

/-- Runs operations from the beginning. -/
def run (st : State) : List Op → List (Op × Out) × State
  | [] => ([], st)
  | o :: os =>
    let r := step st o
    let r' := run r.1 os
    ((o, r.2) :: r'.1, r'.2)

def histOf (cfg : Timeouts) (t0 : Nat) : List Op → List (Op × Out) × State := run (init cfg t0)

theorem hist_run (cfg : Timeouts) (t0 : Nat) (ops : List Op) (evs : List (Op × Out)) (st : State)
    (h : Hist cfg t0 evs st)
    (hm : ∀ pre o post, ops = pre ++ o :: post → ∀ t, o.time = some t →
      (seen t0 (evs ++ (run st pre).1)).clock ≤ t) : Hist cfg t0 (evs ++ (run st ops).1) (run st ops).2 := by
  induction ops generalizing evs st with
  | nil => simpa [run] using h
  | cons o ops ih =>
    have h1 := Hist.snoc evs st h o (by
      intro t ht
      have := hm [] o ops rfl t ht
      simpa [run] using this)
    have := ih _ _ h1 (by
      intro pre x post hx t ht
      have := hm (o :: pre) x post (by rw [hx]; rfl) t ht
      simpa [run] using this)
    simpa [run] using this

/-- With a timeout for the headers, the (shorter) timeout for the whole response does not apply until the headers have come:
here the response may take 5, it is not there at 50, and nothing happens. -/
theorem C48_response_end_waits_for_headers :
    (run (init ⟨some 100, some 5, none, none⟩ 0) [.pollReq 0 (some true), .dropReq, .pollRsp 50 none]).1.getLast? =
      some (.pollRsp 50 none, .pending) := by decide +kernel

/-- Once the request has ended, idleness does not fail a stream whose response is awaited. -/
theorem C48_idle_does_not_apply_to_waiting :
    (run (init ⟨none, none, some 5, none⟩ 0) [.pollReq 0 (some true), .dropReq, .pollRsp 50 none]).1.getLast? =
      some (.pollRsp 50 none, .pending) := by decide +kernel

/-! ## Concrete histories -/

example : (run (init ⟨some 10, some 20, some 8, some (100, 90)⟩ 0)
    [.pollReq 1 (some false), .pollReq 6 none, .pollReq 7 (some true), .dropReq, .pollRsp 9 none, .pollRsp 17 none]).1.map
      (·.2) = [.passed, .pending, .passed, .passed, .pending, .timeout (.headers 10)] := by decide +kernel
example : (run (init ⟨some 10, some 20, some 8, some (100, 90)⟩ 0)
    [.pollReq 1 (some true), .pollRsp 9 (some true), .pollBody 12 true, .pollBody 19 false, .pollBody 20 false]).1.map
      (·.2) = [.passed, .passed, .passed, .pending, .timeout (.idle 8)] := by decide +kernel
example : (run (init ⟨none, some 20, some 8, none⟩ 0)
    [.pollRsp 9 (some true), .pollReq 15 (some false), .pollBody 18 false, .pollBody 23 false]).1.map
      (·.2) = [.passed, .passed, .pending, .timeout (.idle 8)] := by decide +kernel
example : (run (init ⟨none, some 20, none, some (100, 90)⟩ 0)
    [.pollRsp 9 (some true), .pollBody 28 false, .pollBody 29 false, .pollReq 100 none]).1.map
      (·.2) = [.passed, .pending, .timeout (.response 20), .timeout (.lifetime 90)] := by decide +kernel

/-- The second of these is one of the histories. -/
example : ∃ evs st, Hist ⟨some 10, some 20, some 8, some (100, 90)⟩ 0 evs st ∧ evs.length = 5 := by
  have := hist_run ⟨some 10, some 20, some 8, some (100, 90)⟩ 0
    [.pollReq 1 (some true), .pollRsp 9 (some true), .pollBody 12 true, .pollBody 19 false, .pollBody 20 false] [] _ .nil
    (by
      intro pre o post h t ht
      match pre with
      | [] => simp at h; obtain ⟨rfl, rfl⟩ := h; simp [Op.time] at ht; subst ht; decide +kernel
      | [_] => simp at h; obtain ⟨rfl, rfl, rfl⟩ := h; simp [Op.time] at ht; subst ht; decide +kernel
      | [_, _] => simp at h; obtain ⟨rfl, rfl, rfl, rfl⟩ := h; simp [Op.time] at ht; subst ht; decide +kernel
      | [_, _, _] => simp at h; obtain ⟨rfl, rfl, rfl, rfl, rfl⟩ := h; simp [Op.time] at ht; subst ht; decide +kernel
      | [_, _, _, _] => simp at h; obtain ⟨rfl, rfl, rfl, rfl, rfl, rfl⟩ := h; simp [Op.time] at ht; subst ht; decide +kernel
      | _ :: _ :: _ :: _ :: _ :: _ => simp at h)
  exact ⟨_, _, this, by decide +kernel⟩

end Verif.StreamTimeouts
