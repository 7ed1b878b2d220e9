import Verif.Prom.Props

/-!
# Durations and frame sizes: properties (C83)
-/

namespace Verif.Prom

variable {E L S Q F X : Type}

/-! ## Specification -/

/-- The request body has been sent, or given up. -/
def Flush (ev : Ev E) : Prop := ev = .reqPoll true ∨ ev = .reqDrop

/-- The time at which the request body was first done. -/
def FirstFlush (evs : List (Nat × Ev E)) (u : Nat) : Prop :=
  ∃ a ev b, evs = a ++ (u, ev) :: b ∧ Flush ev ∧ ∀ e ∈ a, ¬ Flush e.2

/-- The request ends, and `pre` is what happened to it before. -/
def EndsAfter (pre evs : List (Nat × Ev E)) (now : Nat) (r : Option Rsp) (eos : Eos E) : Prop :=
  ∃ x post, evs = pre ++ x :: post ∧ Ends (pre ++ [x]) now r eos ∧ ∀ n r' e', ¬ Ends pre n r' e'

/-- What a request that has ended should have been observed with: its label, and the time from its dispatch to its end. -/
def RequestTook (lab : Labeler Q E S L) (cancelled : E) (t : Transcript Q E) (x : L × Nat) : Prop :=
  ∃ now r eos, Ends t.2.2 now r eos ∧ LabelOf lab cancelled t.2.1 r eos x.1 ∧ x.2 = now - t.1

/-- For response durations, the time from the end of the request body to the end of the response; or none at all, if the
request body was not done by then. -/
def ResponseTook (lab : Labeler Q E S L) (cancelled : E) (t : Transcript Q E) (x : L × Nat) : Prop :=
  ∃ pre now r eos, EndsAfter pre t.2.2 now r eos ∧ LabelOf lab cancelled t.2.1 r eos x.1 ∧
    ((∃ u, FirstFlush pre u ∧ x.2 = now - u) ∨ ((∀ u, ¬ FirstFlush pre u) ∧ x.2 = 0))

/-! ## Helpers -/

/-- The first flush. -/
def firstFlush : List (Nat × Ev E) → Option Nat
  | [] => none
  | (u, .reqPoll true) :: _ => some u
  | (u, .reqDrop) :: _ => some u
  | _ :: evs => firstFlush evs

theorem firstFlush_iff (evs : List (Nat × Ev E)) (u : Nat) : FirstFlush evs u ↔ firstFlush evs = some u := by
  induction evs with
  | nil => constructor <;> simp [firstFlush, FirstFlush]
  | cons e evs ih =>
    obtain ⟨t, ev⟩ := e
    by_cases hf : Flush ev
    · have h : firstFlush ((t, ev) :: evs) = some t := by
        rcases hf with rfl | rfl <;> rfl
      rw [h]
      constructor
      · rintro ⟨a, ev', b, h1, h2, h3⟩
        cases a with
        | nil => cases h1; rfl
        | cons y a =>
          cases h1
          exact absurd hf (h3 (t, ev) (by simp))
      · intro h
        cases h
        exact ⟨[], ev, evs, rfl, hf, by simp⟩
    · have h : firstFlush ((t, ev) :: evs) = firstFlush evs := by
        cases ev with
        | reqPoll b =>
          cases b with
          | true => exact absurd (.inl rfl) hf
          | false => rfl
        | reqDrop => exact absurd (.inr rfl) hf
        | future p => rfl
        | body p => rfl
        | drop => rfl
      rw [h, ← ih]
      constructor
      · rintro ⟨a, ev', b, h1, h2, h3⟩
        cases a with
        | nil => cases h1; exact absurd h2 hf
        | cons y a =>
          cases h1
          exact ⟨a, ev', b, rfl, h2, fun e he => h3 e (by simp [he])⟩
      · rintro ⟨a, ev', b, rfl, h2, h3⟩
        refine ⟨(t, ev) :: a, ev', b, rfl, h2, ?_⟩
        intro e he
        rcases List.mem_cons.1 he with rfl | he
        · exact hf
        · exact h3 e he

/-- The body's end with what comes before. -/
def bodySplit : List (Nat × Ev E) → Option (List (Nat × Ev E) × Nat × Eos E)
  | [] => none
  | (t, .body p) :: evs => match eosRef p with
    | some eos => some ([], t, eos)
    | none => (bodySplit evs).map fun x => ((t, .body p) :: x.1, x.2)
  | (t, .drop) :: _ => some ([], t, .cancelled)
  | e :: evs => (bodySplit evs).map fun x => (e :: x.1, x.2)

/-- The end with what comes before. -/
def endSplit : List (Nat × Ev E) → Option (List (Nat × Ev E) × Nat × Option Rsp × Eos E)
  | [] => none
  | (t, .future (.err e)) :: _ => some ([], t, none, .error e)
  | (t, .future (.ok r true)) :: _ => some ([], t, some r, .none)
  | (t, .future (.ok r false)) :: evs =>
    (bodySplit evs).map fun x => ((t, .future (.ok r false)) :: x.1, x.2.1, some r, x.2.2)
  | (_, .drop) :: _ => none
  | e :: evs => (endSplit evs).map fun x => (e :: x.1, x.2)

theorem bodySplit_end (evs : List (Nat × Ev E)) : (bodySplit evs).map (·.2) = bodyEnd evs := by
  induction evs with
  | nil => rfl
  | cons e evs ih =>
    obtain ⟨t, ev⟩ := e
    cases ev with
    | body p => cases he : eosRef p <;> simp [bodySplit, bodyEnd, he, ← ih, Function.comp_def]
    | drop => rfl
    | future p => simp [bodySplit, bodyEnd, ← ih, Function.comp_def]
    | reqPoll b => simp [bodySplit, bodyEnd, ← ih, Function.comp_def]
    | reqDrop => simp [bodySplit, bodyEnd, ← ih, Function.comp_def]

theorem endSplit_end (evs : List (Nat × Ev E)) : (endSplit evs).map (·.2) = endOf evs := by
  induction evs with
  | nil => rfl
  | cons e evs ih =>
    obtain ⟨t, ev⟩ := e
    cases ev with
    | future p =>
      cases p with
      | pending => simp [endSplit, endOf, ← ih, Function.comp_def]
      | err e => rfl
      | ok r ended =>
        cases ended with
        | true => rfl
        | false => simp [endSplit, endOf, ← bodySplit_end, Function.comp_def]
    | drop => rfl
    | body p => simp [endSplit, endOf, ← ih, Function.comp_def]
    | reqPoll b => simp [endSplit, endOf, ← ih, Function.comp_def]
    | reqDrop => simp [endSplit, endOf, ← ih, Function.comp_def]

theorem bodySplit_iff (pre evs : List (Nat × Ev E)) (t : Nat) (eos : Eos E) :
    bodySplit evs = some (pre, t, eos) ↔
      ∃ x post, evs = pre ++ x :: post ∧ bodyEnd (pre ++ [x]) = some (t, eos) ∧ bodyEnd pre = none := by
  induction evs generalizing pre with
  | nil =>
    constructor
    · intro h; cases h
    · rintro ⟨x, post, h, _⟩
      simp at h
  | cons e evs ih =>
    obtain ⟨w, ev⟩ := e
    -- an event that does not end the body
    have hskip : ∀ (_ : bodySplit ((w, ev) :: evs) = (bodySplit evs).map fun x => ((w, ev) :: x.1, x.2))
        (_ : ∀ l, bodyEnd ((w, ev) :: l) = bodyEnd l),
        (bodySplit ((w, ev) :: evs) = some (pre, t, eos) ↔
          ∃ x post, (w, ev) :: evs = pre ++ x :: post ∧ bodyEnd (pre ++ [x]) = some (t, eos) ∧ bodyEnd pre = none) := by
      intro h1 h2
      rw [h1]
      constructor
      · intro h
        rw [Option.map_eq_some_iff] at h
        obtain ⟨⟨pre', t', eos'⟩, h3, h4⟩ := h
        cases h4
        obtain ⟨x, post, rfl, h5, h6⟩ := (ih pre').1 h3
        exact ⟨x, post, rfl, by rw [List.cons_append, h2]; exact h5, by rw [h2]; exact h6⟩
      · rintro ⟨x, post, h3, h4, h5⟩
        cases pre with
        | nil =>
          cases h3
          rw [List.nil_append, h2] at h4
          cases h4
        | cons y pre =>
          cases h3
          rw [List.cons_append, h2] at h4
          rw [h2] at h5
          rw [(ih pre).2 ⟨x, post, rfl, h4, h5⟩]
          rfl
    have hstop : ∀ (eos0 : Eos E) (_ : bodySplit ((w, ev) :: evs) = some ([], w, eos0))
        (_ : ∀ l, bodyEnd ((w, ev) :: l) = some (w, eos0)),
        (bodySplit ((w, ev) :: evs) = some (pre, t, eos) ↔
          ∃ x post, (w, ev) :: evs = pre ++ x :: post ∧ bodyEnd (pre ++ [x]) = some (t, eos) ∧ bodyEnd pre = none) := by
      intro eos0 h1 h2
      rw [h1]
      constructor
      · intro h
        simp only [Option.some.injEq, Prod.mk.injEq] at h
        obtain ⟨rfl, rfl, rfl⟩ := h
        exact ⟨_, evs, rfl, h2 [], rfl⟩
      · rintro ⟨x, post, h3, h4, h5⟩
        cases pre with
        | nil =>
          cases h3
          rw [List.nil_append, h2] at h4
          cases h4
          rfl
        | cons y pre =>
          cases h3
          rw [h2] at h5
          cases h5
    cases ev with
    | body p =>
      cases he : eosRef p with
      | none => exact hskip (by simp [bodySplit, he]) (by intro l; simp [bodyEnd, he])
      | some e => exact hstop e (by simp [bodySplit, he]) (by intro l; simp [bodyEnd, he])
    | drop => exact hstop .cancelled rfl (fun _ => rfl)
    | future p => exact hskip rfl (fun _ => rfl)
    | reqPoll b => exact hskip rfl (fun _ => rfl)
    | reqDrop => exact hskip rfl (fun _ => rfl)

theorem endSplit_iff' (pre evs : List (Nat × Ev E)) (y : Nat × Option Rsp × Eos E) :
    endSplit evs = some (pre, y) ↔
      ∃ x post, evs = pre ++ x :: post ∧ endOf (pre ++ [x]) = some y ∧ endOf pre = none := by
  induction evs generalizing pre with
  | nil =>
    constructor
    · intro h; cases h
    · rintro ⟨x, post, h, _⟩
      simp at h
  | cons e evs ih =>
    obtain ⟨w, ev⟩ := e
    have hskip : ∀ (_ : endSplit ((w, ev) :: evs) = (endSplit evs).map fun x => ((w, ev) :: x.1, x.2))
        (_ : ∀ l, endOf ((w, ev) :: l) = endOf l),
        (endSplit ((w, ev) :: evs) = some (pre, y) ↔
          ∃ x post, (w, ev) :: evs = pre ++ x :: post ∧ endOf (pre ++ [x]) = some y ∧ endOf pre = none) := by
      intro h1 h2
      rw [h1]
      constructor
      · intro h
        rw [Option.map_eq_some_iff] at h
        obtain ⟨⟨pre', y'⟩, h3, h4⟩ := h
        cases h4
        obtain ⟨x, post, rfl, h5, h6⟩ := (ih pre').1 h3
        exact ⟨x, post, rfl, by rw [List.cons_append, h2]; exact h5, by rw [h2]; exact h6⟩
      · rintro ⟨x, post, h3, h4, h5⟩
        cases pre with
        | nil =>
          cases h3
          rw [List.nil_append, h2] at h4
          cases h4
        | cons z pre =>
          cases h3
          rw [List.cons_append, h2] at h4
          rw [h2] at h5
          rw [(ih pre).2 ⟨x, post, rfl, h4, h5⟩]
          rfl
    have hstop : ∀ (y0 : Nat × Option Rsp × Eos E) (_ : endSplit ((w, ev) :: evs) = some ([], y0))
        (_ : ∀ l, endOf ((w, ev) :: l) = some y0),
        (endSplit ((w, ev) :: evs) = some (pre, y) ↔
          ∃ x post, (w, ev) :: evs = pre ++ x :: post ∧ endOf (pre ++ [x]) = some y ∧ endOf pre = none) := by
      intro y0 h1 h2
      rw [h1]
      constructor
      · intro h
        cases h
        exact ⟨(w, ev), evs, rfl, h2 [], rfl⟩
      · rintro ⟨x, post, h3, h4, h5⟩
        cases pre with
        | nil =>
          cases h3
          rw [List.nil_append, h2] at h4
          cases h4
          rfl
        | cons z pre =>
          cases h3
          rw [h2] at h5
          cases h5
    cases ev with
    | future p =>
      cases p with
      | pending => exact hskip rfl (fun _ => rfl)
      | err e => exact hstop _ rfl (fun _ => rfl)
      | ok r ended =>
        cases ended with
        | true => exact hstop _ rfl (fun _ => rfl)
        | false =>
          simp only [endSplit]
          constructor
          · intro h
            rw [Option.map_eq_some_iff] at h
            obtain ⟨⟨pre', t', eos'⟩, h3, h4⟩ := h
            cases h4
            obtain ⟨x, post, rfl, h5, h6⟩ := (bodySplit_iff _ _ _ _).1 h3
            exact ⟨x, post, rfl, by simp [endOf, h5], by simp [endOf, h6]⟩
          · rintro ⟨x, post, h3, h4, h5⟩
            cases pre with
            | nil =>
              cases h3
              cases h4
            | cons z pre =>
              cases h3
              simp only [List.cons_append, endOf, Option.map_eq_some_iff] at h4
              obtain ⟨⟨t', eos'⟩, h4, rfl⟩ := h4
              simp only [endOf, Option.map_eq_none_iff] at h5
              have := (bodySplit_iff pre (pre ++ x :: post) _ _).2 ⟨x, post, rfl, h4, h5⟩
              simp only [List.append_eq, this, Option.map_some]
    | drop =>
      simp only [endSplit]
      constructor
      · intro h; cases h
      · rintro ⟨x, post, h3, h4, h5⟩
        cases pre with
        | nil => cases h3; cases h4
        | cons z pre => cases h3; cases h4
    | body p => exact hskip rfl (fun _ => rfl)
    | reqPoll b => exact hskip rfl (fun _ => rfl)
    | reqDrop => exact hskip rfl (fun _ => rfl)

theorem endsAfter_iff (pre evs : List (Nat × Ev E)) (now : Nat) (r : Option Rsp) (eos : Eos E) :
    EndsAfter pre evs now r eos ↔ endSplit evs = some (pre, now, r, eos) := by
  rw [endSplit_iff']
  unfold EndsAfter
  simp only [ends_iff]
  have : (∀ n r' e', ¬ endOf pre = some (n, r', e')) ↔ endOf pre = none := by
    cases h : endOf pre with
    | none => simp
    | some x => obtain ⟨a, b, c⟩ := x; simp
  rw [this]

/-! ## One request -/

/-- The states of the start time that occur, with what a flush makes of them. -/
def OkStart (st : DurState S) : Prop :=
  (∃ c, st.start = .known (some c) ∧ st.flushed = false) ∨ (st.start = .pending none ∧ st.flushed = true) ∨
  (∃ u, st.start = .pending (some u) ∧ st.flushed = false)

theorem flush_recv (st : DurState S) (now : Nat) (h : OkStart st) :
    OkStart (flush st now) ∧ (flush st now).start.recv = st.start.recv.or (some now) ∧ (flush st now).state = st.state := by
  obtain ⟨s, start, fl⟩ := st
  rcases h with ⟨c, h1, h2⟩ | ⟨h1, h2⟩ | ⟨u, h1, h2⟩ <;> simp only at h1 h2 <;> subst h1 h2
  · exact ⟨.inl ⟨c, rfl, rfl⟩, rfl, rfl⟩
  · exact ⟨.inr (.inr ⟨now, rfl, rfl⟩), rfl, rfl⟩
  · exact ⟨.inr (.inr ⟨u, rfl, rfl⟩), rfl, rfl⟩

/-- The elapsed time from a start, if there is one. -/
def elapsed (now : Nat) (a : Option Nat) : Nat :=
  match a with
  | some t => now - t
  | none => 0

/-- How an end is shown, as a function. -/
def shown (cancelled : E) : Eos E → Res E
  | .none => .ok none
  | .trailers h => .ok (some h)
  | .error e => .err e
  | .cancelled => .err cancelled

theorem durPoll_eq (lab : Labeler Q E S L) (c : E) (st : DurState S) (now : Nat) (p : BodyPoll E) :
    durPoll lab st now p = match eosRef p with
      | some eos => endStream lab st now (shown c eos)
      | none => (st, none) := by
  obtain ⟨p, ended⟩ := p
  cases p <;> cases ended <;> rfl

theorem dur_silent (lab : Labeler Q E S L) (c : E) (ph : DurPhase) (st : DurState S) (h : st.state = none)
    (evs : List (Nat × Ev E)) : outs (durStep lab c) ⟨ph, st⟩ evs = [] := by
  have hend : ∀ (st : DurState S) now (res : Res E), st.state = none → endStream lab st now res = (st, none) := by
    intro st now res h
    simp [endStream, h]
  have hflush : ∀ (st : DurState S) now, st.state = none → (flush st now).state = none := by
    intro st now h
    unfold flush
    split
    · cases st.start <;> exact h
    · exact h
  induction evs generalizing ph st with
  | nil => rfl
  | cons e evs ih =>
    obtain ⟨t, ev⟩ := e
    cases ev with
    | future p =>
      cases p with
      | pending => cases ph <;> simp [outs, durStep, ih _ _ h]
      | err e => cases ph <;> simp [outs, durStep, hend _ _ _ h, ih _ _ h]
      | ok r ended =>
        cases ph with
        | future =>
          have h' : ({ st with state := st.state.map fun s => lab.init s r } : DurState S).state = none := by simp [h]
          cases ended with
          | true => simp only [outs, durStep, if_true, hend _ _ _ h']; simpa using ih _ _ h'
          | false => simpa [outs, durStep] using ih _ _ h'
        | body => simp [outs, durStep, ih _ _ h]
        | gone => simp [outs, durStep, ih _ _ h]
    | body p =>
      cases ph with
      | body =>
        simp only [outs, durStep, durPoll_eq lab c]
        cases eosRef p with
        | none => simpa using ih _ _ h
        | some eos => simp only [hend _ _ _ h]; simpa using ih _ _ h
      | future => simp [outs, durStep, ih _ _ h]
      | gone => simp [outs, durStep, ih _ _ h]
    | drop =>
      cases ph with
      | future => simpa [outs, durStep] using ih _ _ rfl
      | body => simp only [outs, durStep, hend _ _ _ h]; simpa using ih _ _ h
      | gone => simp [outs, durStep, ih _ _ h]
    | reqPoll b =>
      cases b with
      | true => cases ph <;> simpa [outs, durStep] using ih _ _ (hflush st t h)
      | false => cases ph <;> simpa [outs, durStep] using ih _ _ h
    | reqDrop => cases ph <;> simpa [outs, durStep] using ih _ _ (hflush st t h)

theorem endStream_some (lab : Labeler Q E S L) (st : DurState S) (now : Nat) (res : Res E) (s : S)
    (h : st.state = some s) :
    endStream lab st now res =
      ({ st with state := none }, some (lab.label (lab.fin s res), elapsed now st.start.recv)) := by
  simp only [endStream, h, elapsed]
  cases st.start.recv <;> rfl

theorem dur_body (lab : Labeler Q E S L) (c : E) (st : DurState S) (s : S) (h : st.state = some s) (hok : OkStart st)
    (evs : List (Nat × Ev E)) :
    outs (durStep lab c) ⟨.body, st⟩ evs = ((bodySplit evs).map fun x =>
      (lab.label (lab.fin s (shown c x.2.2)), elapsed x.2.1 (st.start.recv.or (firstFlush x.1)))).toList := by
  induction evs generalizing st with
  | nil => rfl
  | cons e evs ih =>
    obtain ⟨t, ev⟩ := e
    cases ev with
    | future p =>
      have := ih st h hok
      simp [outs, durStep, bodySplit, this, Function.comp_def, firstFlush]
    | body p =>
      simp only [outs, durStep, durPoll_eq lab c]
      cases he : eosRef p with
      | none => simp [ih st h hok, bodySplit, he, Function.comp_def, firstFlush]
      | some eos =>
        simp only [endStream_some lab st t _ s h]
        rw [dur_silent lab c _ _ rfl]
        simp [bodySplit, he, firstFlush]
    | drop =>
      simp only [outs, durStep, endStream_some lab st t _ s h]
      rw [dur_silent lab c _ _ rfl]
      simp [bodySplit, firstFlush, shown]
    | reqPoll b =>
      cases b with
      | false => simp [outs, durStep, ih st h hok, bodySplit, Function.comp_def, firstFlush]
      | true =>
        obtain ⟨h1, h2, h3⟩ := flush_recv st t hok
        have := ih (flush st t) (h3.trans h) h1
        simp [outs, durStep, this, bodySplit, Function.comp_def, firstFlush, h2]
    | reqDrop =>
      obtain ⟨h1, h2, h3⟩ := flush_recv st t hok
      have := ih (flush st t) (h3.trans h) h1
      simp [outs, durStep, this, bodySplit, Function.comp_def, firstFlush, h2]

theorem dur_future (lab : Labeler Q E S L) (c : E) (st : DurState S) (s : S) (h : st.state = some s) (hok : OkStart st)
    (evs : List (Nat × Ev E)) :
    outs (durStep lab c) ⟨.future, st⟩ evs = ((endSplit evs).map fun x =>
      (lab.label (lab.fin (match x.2.2.1 with
        | some r => lab.init s r
        | none => s) (shown c x.2.2.2)), elapsed x.2.1 (st.start.recv.or (firstFlush x.1)))).toList := by
  induction evs generalizing st with
  | nil => rfl
  | cons e evs ih =>
    obtain ⟨t, ev⟩ := e
    cases ev with
    | future p =>
      cases p with
      | pending => simp [outs, durStep, ih st h hok, endSplit, Function.comp_def, firstFlush]
      | err e =>
        simp only [outs, durStep, endStream_some lab st t _ s h]
        rw [dur_silent lab c _ _ rfl]
        simp [endSplit, firstFlush, shown]
      | ok r ended =>
        have h' : ({ st with state := st.state.map fun s => lab.init s r } : DurState S).state = some (lab.init s r) := by
          simp [h]
        cases ended with
        | true =>
          simp only [outs, durStep, if_true, endStream_some lab _ t _ _ h']
          rw [dur_silent lab c _ _ rfl]
          simp [endSplit, firstFlush, shown]
        | false =>
          have := dur_body lab c _ _ h' (by simpa [OkStart] using hok) evs
          simp [outs, durStep, this, endSplit, Function.comp_def, firstFlush]
    | drop =>
      simp only [outs, durStep]
      rw [dur_silent lab c _ _ rfl]
      simp [endSplit]
    | body p => simp [outs, durStep, ih st h hok, endSplit, Function.comp_def, firstFlush]
    | reqPoll b =>
      cases b with
      | false => simp [outs, durStep, ih st h hok, endSplit, Function.comp_def, firstFlush]
      | true =>
        obtain ⟨h1, h2, h3⟩ := flush_recv st t hok
        have := ih (flush st t) (h3.trans h) h1
        simp [outs, durStep, this, endSplit, Function.comp_def, firstFlush, h2]
    | reqDrop =>
      obtain ⟨h1, h2, h3⟩ := flush_recv st t hok
      have := ih (flush st t) (h3.trans h) h1
      simp [outs, durStep, this, endSplit, Function.comp_def, firstFlush, h2]

theorem labelOf_iff (lab : Labeler Q E S L) (c : E) (q : Q) (s : S) (h : lab.make q = some s) (r : Option Rsp)
    (eos : Eos E) (l : L) :
    LabelOf lab c q r eos l ↔ l = lab.label (lab.fin (match r with
      | some r => lab.init s r
      | none => s) (shown c eos)) := by
  constructor
  · rintro ⟨s', res, h1, h2, rfl⟩
    rw [h] at h1
    cases h1
    rw [shown_iff] at h2
    subst h2
    cases eos <;> rfl
  · rintro rfl
    exact ⟨s, _, h, by cases eos <;> constructor, rfl⟩

theorem outs_request (lab : Labeler Q E S L) (c : E) (t : Transcript Q E) :
    (∀ x, RequestTook lab c t x ↔ x ∈ outs (durStep lab c) (requestStart lab t.1 t.2.1) t.2.2) ∧
    (outs (durStep lab c) (requestStart lab t.1 t.2.1) t.2.2).length ≤ 1 := by
  obtain ⟨t0, q, evs⟩ := t
  cases hm : lab.make q with
  | none =>
    simp only [requestStart]
    rw [dur_silent lab c _ _ hm]
    refine ⟨fun x => ?_, by simp⟩
    simp only [List.not_mem_nil, iff_false]
    rintro ⟨_, _, _, _, ⟨s, _, h, _⟩, _⟩
    rw [hm] at h
    cases h
  | some s =>
    simp only [requestStart]
    rw [dur_future lab c _ s hm (.inl ⟨t0, rfl, rfl⟩)]
    refine ⟨fun x => ?_, by cases endSplit evs <;> simp⟩
    obtain ⟨l, d⟩ := x
    have he := endSplit_end evs
    constructor
    · rintro ⟨now, r, eos, h1, h2, h3⟩
      rw [ends_iff] at h1
      rw [labelOf_iff lab c q s hm] at h2
      simp only at h2 h3
      subst h2 h3
      simp only at h1
      rw [h1] at he
      cases hs : endSplit evs with
      | none => rw [hs] at he; cases he
      | some y =>
        rw [hs] at he
        simp only [Option.map_some, Option.some.injEq] at he
        obtain ⟨pre, y⟩ := y
        simp only at he
        subst he
        simp [Start.recv, elapsed]
    · intro hx
      cases hs : endSplit evs with
      | none => simp [hs] at hx
      | some y =>
        obtain ⟨pre, now, r, eos⟩ := y
        rw [hs] at hx he
        simp only [Option.map_some, Option.toList_some, List.mem_singleton, Start.recv, Option.or_some, elapsed,
          Prod.mk.injEq] at hx
        refine ⟨now, r, eos, (ends_iff _ _ _ _).2 he.symm, (labelOf_iff lab c q s hm _ _ _).2 hx.1, hx.2⟩

theorem outs_response (lab : Labeler Q E S L) (c : E) (t : Transcript Q E) :
    (∀ x, ResponseTook lab c t x ↔ x ∈ outs (durStep lab c) (responseStart lab t.1 t.2.1) t.2.2) ∧
    (outs (durStep lab c) (responseStart lab t.1 t.2.1) t.2.2).length ≤ 1 := by
  obtain ⟨t0, q, evs⟩ := t
  cases hm : lab.make q with
  | none =>
    simp only [responseStart, hm]
    rw [dur_silent lab c _ _ rfl]
    refine ⟨fun x => ?_, by simp⟩
    simp only [List.not_mem_nil, iff_false]
    rintro ⟨_, _, _, _, _, ⟨s, _, h, _⟩, _⟩
    rw [hm] at h
    cases h
  | some s =>
    simp only [responseStart, hm]
    rw [dur_future lab c _ s rfl (.inr (.inl ⟨rfl, rfl⟩))]
    refine ⟨fun x => ?_, by cases endSplit evs <;> simp⟩
    obtain ⟨l, d⟩ := x
    simp only [ResponseTook, endsAfter_iff, labelOf_iff lab c q s hm, firstFlush_iff, Start.recv, Option.none_or]
    constructor
    · rintro ⟨pre, now, r, eos, h1, h2, h3⟩
      rw [h1]
      subst h2
      simp only [Option.map_some, Option.toList_some, List.mem_singleton, Prod.mk.injEq, true_and]
      rcases h3 with ⟨u, h4, h5⟩ | ⟨h4, h5⟩
      · rw [h4, h5]; rfl
      · have : firstFlush pre = none := by
          cases hf : firstFlush pre with
          | none => rfl
          | some u => exact absurd hf (h4 u)
        rw [this, h5]; rfl
    · intro hx
      cases hs : endSplit evs with
      | none => simp [hs] at hx
      | some y =>
        obtain ⟨pre, now, r, eos⟩ := y
        rw [hs] at hx
        simp only [Option.map_some, Option.toList_some, List.mem_singleton, Prod.mk.injEq] at hx
        refine ⟨pre, now, r, eos, rfl, hx.1, ?_⟩
        cases hf : firstFlush pre with
        | none => rw [hf] at hx; exact .inr ⟨by simp, hx.2⟩
        | some u => rw [hf] at hx; exact .inl ⟨u, rfl, hx.2⟩

/-! ## C83 -/

open Classical in
/-- C83. Over every history of concurrent requests, the request duration histogram has one observation for each request
that has ended, with its label and the time from its dispatch to its end; and no others. -/
theorem C83_request_durations [DecidableEq L] (lab : Labeler Q E S L) (cancelled : E) (ops : List (Op Q E)) (x : L × Nat) :
    (Sys.run (requestStart lab) (durStep lab cancelled) ops).emitted.count x =
      ((transcripts ops).filter fun t => RequestTook lab cancelled t x).length := by
  rw [(run_sys (requestStart lab) (durStep lab cancelled) ops).2.1.count_eq]
  exact count_flatMap_once _ _ _ _ fun t _ => ⟨(outs_request lab cancelled t).1 x, (outs_request lab cancelled t).2⟩

open Classical in
/-- C83. Likewise for the response duration histogram, with the time from the end of the request's body. -/
theorem C83_response_durations [DecidableEq L] (lab : Labeler Q E S L) (cancelled : E) (ops : List (Op Q E))
    (x : L × Nat) :
    (Sys.run (responseStart lab) (durStep lab cancelled) ops).emitted.count x =
      ((transcripts ops).filter fun t => ResponseTook lab cancelled t x).length := by
  rw [(run_sys (responseStart lab) (durStep lab cancelled) ops).2.1.count_eq]
  exact count_flatMap_once _ _ _ _ fun t _ => ⟨(outs_response lab cancelled t).1 x, (outs_response lab cancelled t).2⟩

/-- C83. The histograms and the status counters agree: a request is observed when, and only when, it has an outcome. -/
theorem C83_observed_iff_counted (lab : Labeler Q E S L) (cancelled : E) (t : Transcript Q E) :
    ((∃ x, RequestTook lab cancelled t x) ↔ ∃ l, Outcome lab cancelled t l) ∧
    ((∃ x, ResponseTook lab cancelled t x) ↔ ∃ l, Outcome lab cancelled t l) := by
  constructor
  · constructor
    · rintro ⟨x, now, r, eos, h1, h2, _⟩
      exact ⟨x.1, now, r, eos, h1, h2⟩
    · rintro ⟨l, now, r, eos, h1, h2⟩
      exact ⟨(l, now - t.1), now, r, eos, h1, h2, rfl⟩
  · constructor
    · rintro ⟨x, pre, now, r, eos, h1, h2, _⟩
      rw [endsAfter_iff] at h1
      refine ⟨x.1, now, r, eos, ?_, h2⟩
      rw [ends_iff, ← endSplit_end, h1]
      rfl
    · rintro ⟨l, now, r, eos, h1, h2⟩
      rw [ends_iff, ← endSplit_end, Option.map_eq_some_iff] at h1
      obtain ⟨⟨pre, y⟩, h1, rfl⟩ := h1
      have h3 := (endsAfter_iff _ _ _ _ _).2 h1
      cases hf : firstFlush pre with
      | none =>
        refine ⟨(l, 0), pre, now, r, eos, h3, h2, .inr ⟨fun u hu => ?_, rfl⟩⟩
        rw [firstFlush_iff, hf] at hu
        cases hu
      | some u => exact ⟨(l, now - u), pre, now, r, eos, h3, h2, .inl ⟨u, (firstFlush_iff _ _).2 hf, rfl⟩⟩

/-- C83. Every data frame is observed once, with its size, in order; nothing else is; and all frames pass unchanged. -/
theorem C83_frame_sizes (ps : List (Polled E)) :
    (frameRun ps).2 = ps ∧
    (frameRun ps).1 = (ps.filterMap fun p => match p with
      | .data b => some b.length
      | _ => none) := by
  constructor
  · have : (fun p : Polled E => (framePoll p).2) = id := by
      funext p
      cases p <;> rfl
    simp [frameRun, this]
  · simp only [frameRun]
    congr 1
    funext p
    cases p <;> rfl

/-- C83. The sizes observed add up to the bytes forwarded. -/
theorem C83_bytes (ps : List (Polled E)) :
    (frameRun ps).1.sum = ((frameRun ps).2.flatMap fun p => match p with
      | .data b => b
      | _ => []).length := by
  induction ps with
  | nil => rfl
  | cons p ps ih =>
    cases p <;> simp_all [frameRun, framePoll]

/-- C83. The instrumented response body of a recorded request says that it has ended only if the inner body ended it, or
had no content. -/
theorem C83_ended_iff_recorded (lab : Labeler Q E S L) (st : DurState S) (now : Nat) (p : BodyPoll E) :
    (durPoll lab st now p).1.isEndStream = true ↔ st.isEndStream = true ∨ ∃ eos, LastPoll p eos := by
  simp only [lastPoll_iff]
  have hd : ∀ res : Res E, (endStream lab st now res).1.isEndStream = true := by
    intro res
    unfold endStream DurState.isEndStream
    cases h : st.state <;> simp [h]
  obtain ⟨p, ended⟩ := p
  cases p with
  | pending => simp [durPoll, eosRef]
  | data b => cases ended <;> simp [durPoll, eosRef, hd]
  | trailers h => simp [durPoll, eosRef, hd]
  | err e => simp [durPoll, eosRef, hd]
  | done => simp [durPoll, eosRef, hd]

/-- Limit: the body of a response to a request that is not to be recorded says that it has ended before it was read. None
of the proxy's labelers leaves a request unrecorded. -/
theorem C83_limit_unrecorded_bodies_look_ended (lab : Labeler Q E S L) (cancelled : E) (q : Q) (now t : Nat) (r : Rsp)
    (h : lab.make q = none) :
    (durStep lab cancelled (responseStart lab now q) t (.future (.ok r false))).1.st.isEndStream = true ∧
    (durStep lab cancelled (requestStart lab now q) t (.future (.ok r false))).1.st.isEndStream = true := by
  simp [durStep, responseStart, requestStart, h, DurState.isEndStream]

/-- Limit: a response that ends before its request body is done counts as having taken no time. -/
theorem C83_limit_early_responses_take_no_time (lab : Labeler Q E S L) (cancelled : E) (q : Q) (s : S) (r : Rsp)
    (t0 t : Nat) (h : lab.make q = some s) :
    ∃ l, ResponseTook lab cancelled (t0, q, [(t, .future (.ok r true))]) (l, 0) := by
  refine ⟨_, [], t, some r, .none, (endsAfter_iff _ _ _ _ _).2 rfl, (labelOf_iff lab cancelled q s h _ _ _).2 rfl,
    .inr ⟨fun u hu => ?_, rfl⟩⟩
  rw [firstFlush_iff] at hu
  cases hu

/-! ### A case -/

def exTimes : List (Op Unit (List Cause)) :=
  [.call 10 (), .on 0 12 (.reqPoll false), .on 0 20 (.reqPoll true), .on 0 25 (.future (.ok ⟨200, []⟩ false)),
   .on 0 30 .reqDrop, .on 0 50 (.body ⟨.done, true⟩), .on 0 60 .drop]

def exLabeler : Labeler Unit (List Cause) String String := fixedLabeler "r"

example : (Sys.run (requestStart exLabeler) (durStep exLabeler []) exTimes).emitted = [("r", 40)] ∧
    (Sys.run (responseStart exLabeler) (durStep exLabeler []) exTimes).emitted = [("r", 30)] := by
  decide +kernel

example : frameRun [.data [1, 2, 3], .pending, .data [], (.done : Polled Unit)] =
    ([3, 0], [.data [1, 2, 3], .pending, .data [], .done]) := rfl

end Verif.Prom
