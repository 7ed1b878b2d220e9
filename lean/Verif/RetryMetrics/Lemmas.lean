import Verif.Prom.Props
import Verif.RetryMetrics.Model

/-!
# Metrics of outbound routes, with retries: specification and helper lemmas
-/

namespace Verif.RetryMetrics

open Verif Verif.Prom

variable {Q B E S L : Type}

/-! ## Specification -/

/-- What there is of a request that was given to a recorder: the future of its response, the body of its response, or nothing any more. -/
inductive Life where
  | future
  | body
  | gone
  deriving DecidableEq, Repr

/-- A response comes, or an error, or what there is is dropped. -/
def Life.see : Life → Prom.Ev E → Life
  | .future, .future (.ok _ _) => .body
  | .future, .future (.err _) => .gone
  | _, .drop => .gone
  | l, _ => l

def lifeAfter (l : Life) (evs : List (Nat × Prom.Ev E)) : Life := evs.foldl (fun l e => l.see e.2) l

/-- What there is of it now. -/
def life (t : Transcript Q E) : Life := lifeAfter .future t.2.2

/-- It was dropped before there was a response, or an error. -/
def Cancelled (t : Transcript Q E) : Prop :=
  ∃ pre now post, t.2.2 = pre ++ (now, .drop) :: post ∧ ∀ e ∈ pre, e.2 ≠ .drop ∧ ∀ p, e.2 = .future p → p = .pending

/-- It was answered with this response. -/
def Answered (t : Transcript Q E) (r : Rsp) : Prop := ∃ now ended, (now, Prom.Ev.future (.ok r ended)) ∈ t.2.2

/-! ## Lives -/

theorem see_gone (ev : Prom.Ev E) : Life.gone.see ev = .gone := by cases ev <;> rfl

theorem after_gone (evs : List (Nat × Prom.Ev E)) : lifeAfter .gone evs = .gone := by
  induction evs with
  | nil => rfl
  | cons e evs ih => unfold lifeAfter at ih ⊢; rw [List.foldl_cons, see_gone]; exact ih

theorem body_ends (evs : List (Nat × Prom.Ev E)) : lifeAfter .body evs = .gone → ∃ t eos, BodyEnds evs t eos := by
  induction evs with
  | nil => intro h; cases h
  | cons e evs ih =>
    obtain ⟨u, ev⟩ := e
    intro h
    have go : lifeAfter .body evs = .gone → (∀ p eos, ev = .body p → ¬ LastPoll p eos) → ev ≠ .drop → ∃ t eos, BodyEnds ((u, ev) :: evs) t eos := by
      intro h hp hd
      obtain ⟨t, eos, hb⟩ := ih h
      exact ⟨t, eos, .later hp hd hb⟩
    cases ev with
    | future p =>
      refine go ?_ (by simp) (by simp)
      unfold lifeAfter at h ⊢
      rw [List.foldl_cons] at h
      cases p <;> exact h
    | body p =>
      by_cases hl : ∃ eos, LastPoll p eos
      · obtain ⟨eos, hl⟩ := hl
        exact ⟨u, eos, .last hl⟩
      · refine go h ?_ (by simp)
        intro p' eos e
        cases e
        exact fun hx => hl ⟨eos, hx⟩
    | drop => exact ⟨u, .cancelled, .dropped⟩
    | reqPoll b => exact go h (by simp) (by simp)
    | reqDrop => exact go h (by simp) (by simp)

/-- Once there is nothing any more of a request, it has ended, or it was cancelled before its response. -/
theorem ends_or_cancelled (t : Transcript Q E) (h : life t = .gone) : (∃ now r eos, Ends t.2.2 now r eos) ∨ Cancelled t := by
  obtain ⟨t0, q, evs⟩ := t
  unfold life at h
  unfold Cancelled
  simp only at h ⊢
  clear t0
  induction evs with
  | nil => cases h
  | cons e evs ih =>
    obtain ⟨u, ev⟩ := e
    have go : lifeAfter .future evs = .gone → (∀ p, ev = .future p → p = .pending) → ev ≠ .drop →
        (∃ now r eos, Ends ((u, ev) :: evs) now r eos) ∨ ∃ pre now post, (u, ev) :: evs = pre ++ (now, .drop) :: post ∧
          ∀ e ∈ pre, e.2 ≠ .drop ∧ ∀ p, e.2 = .future p → p = .pending := by
      intro h hp hd
      rcases ih h with ⟨n, r, eos, he⟩ | ⟨pre, n, post, e, hpre⟩
      · exact .inl ⟨n, r, eos, .later hp hd he⟩
      · refine .inr ⟨(u, ev) :: pre, n, post, by rw [e]; rfl, ?_⟩
        intro x hx
        rcases List.mem_cons.1 hx with rfl | hx
        · exact ⟨hd, hp⟩
        · exact hpre x hx
    cases ev with
    | future p =>
      cases p with
      | pending => exact go h (by simp) (by simp)
      | ok r ended =>
        cases ended with
        | true => exact .inl ⟨_, _, _, .empty⟩
        | false =>
          obtain ⟨t, eos, hb⟩ := body_ends evs h
          exact .inl ⟨_, _, _, .body hb⟩
      | err x => exact .inl ⟨_, _, _, .error⟩
    | body p => exact go h (by simp) (by simp)
    | drop => exact .inr ⟨[], u, evs, rfl, by simp⟩
    | reqPoll b => exact go h (by simp) (by simp)
    | reqDrop => exact go h (by simp) (by simp)

/-- A request that was cancelled before its response does not end. -/
theorem cancelled_never_ends (t : Transcript Q E) (h : Cancelled t) : ¬ ∃ now r eos, Ends t.2.2 now r eos := by
  obtain ⟨t0, q, evs⟩ := t
  obtain ⟨pre, now, post, e, hpre⟩ := h
  simp only at e ⊢
  subst e
  rintro ⟨n, r, eos, he⟩
  induction pre generalizing n with
  | nil =>
    cases he with
    | later _ hd _ => exact hd rfl
  | cons x pre ih =>
    have hx := hpre x (by simp)
    obtain ⟨u, ev⟩ := x
    cases he with
    | error => have := hx.2 _ rfl; cases this
    | empty => have := hx.2 _ rfl; cases this
    | body _ => have := hx.2 _ rfl; cases this
    | later _ _ h => exact ih (fun e he => hpre e (by simp [he])) n h

/-! ## Logs -/

theorem transcripts_call (log : List (Prom.Op Q E)) (now : Nat) (q : Q) :
    transcripts (log ++ [.call now q]) = transcripts log ++ [(now, q, [])] := by
  unfold transcripts
  rw [List.foldl_append, List.foldl_cons, List.foldl_nil]

theorem transcripts_on (log : List (Prom.Op Q E)) (i now : Nat) (ev : Prom.Ev E) :
    transcripts (log ++ [.on i now ev]) = (transcripts log).modify i fun t => (t.1, t.2.1, t.2.2 ++ [(now, ev)]) := by
  unfold transcripts
  rw [List.foldl_append, List.foldl_cons, List.foldl_nil]

/-- What of a list of events is for one request. -/
def forOne (now a : Nat) (l : List (Nat × Prom.Ev E)) : List (Nat × Prom.Ev E) := (l.filter fun e => e.1 = a).map fun e => (now, e.2)

theorem told_get (now a : Nat) (l : List (Nat × Prom.Ev E)) (log : List (Prom.Op Q E)) :
    (transcripts (log ++ told now l))[a]? = (transcripts log)[a]?.map fun t => (t.1, t.2.1, t.2.2 ++ forOne now a l) := by
  induction l generalizing log with
  | nil => simp [told, forOne]
  | cons e l ih =>
    have h : log ++ told now (e :: l) = (log ++ [.on e.1 now e.2]) ++ told now l := by simp [told]
    rw [h, ih, transcripts_on]
    simp only [List.getElem?_modify]
    by_cases he : e.1 = a
    · cases (transcripts log)[a]? with
      | none => simp
      | some t => simp [he, forOne]
    · cases (transcripts log)[a]? with
      | none => simp
      | some t => simp [he, forOne]

theorem told_length (now : Nat) (l : List (Nat × Prom.Ev E)) (log : List (Prom.Op Q E)) :
    (transcripts (log ++ told now l)).length = (transcripts log).length := by
  induction l generalizing log with
  | nil => simp [told]
  | cons e l ih =>
    have h : log ++ told now (e :: l) = (log ++ [.on e.1 now e.2]) ++ told now l := by simp [told]
    rw [h, ih, transcripts_on]
    simp

theorem calls_eq (now : Nat) (l : List Q) (log : List (Prom.Op Q E)) :
    transcripts (log ++ l.map (.call now)) = transcripts log ++ l.map fun q => (now, q, []) := by
  induction l generalizing log with
  | nil => simp
  | cons q l ih =>
    have h : log ++ (q :: l).map (Prom.Op.call now) = (log ++ [.call now q]) ++ l.map (.call now) := by simp
    rw [h, ih, transcripts_call]; simp

theorem route_eq (now i : Nat) (l : List (Prom.Ev E)) : (l.map (Prom.Op.on (Q := Q) i now)) = told now (l.map fun e => (i, e)) := by
  simp [told]

theorem forOne_route (now i j : Nat) (l : List (Prom.Ev E)) :
    forOne now j (l.map fun e => (i, e)) = if i = j then l.map (now, ·) else [] := by
  unfold forOne
  by_cases h : i = j
  · subst h; rw [List.filter_eq_self.2 (by simp)]; simp
  · simp [List.filter_map, Function.comp_def, h]

theorem after_append (l : Life) (a b : List (Nat × Prom.Ev E)) : lifeAfter l (a ++ b) = lifeAfter (lifeAfter l a) b := by
  unfold lifeAfter; rw [List.foldl_append]

end Verif.RetryMetrics
