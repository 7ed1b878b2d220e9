import Verif.Common.List
import Verif.Prom.Model

/-!
# Request metrics: specification and helper lemmas
-/

namespace Verif.Prom

variable {E L S Q F X : Type}

/-! ## Specification -/

/-- What happened to one request: when it was dispatched, the request, and what happened to it, with the times. -/
abbrev Transcript (Q E : Type) := Nat × Q × List (Nat × Ev E)

/-- The transcripts of the requests of a history, in the order of dispatch. -/
def transcripts (ops : List (Op Q E)) : List (Transcript Q E) :=
  ops.foldl (fun ts op => match op with
    | .call now q => ts ++ [(now, q, [])]
    | .on i now ev => ts.modify i fun t => (t.1, t.2.1, t.2.2 ++ [(now, ev)])) []

/-- An answer of the inner body after which there is nothing more, and what ended it. -/
inductive LastPoll : BodyPoll E → Eos E → Prop where
  | trailers (h : HeaderMap) (ended : Bool) : LastPoll ⟨.trailers h, ended⟩ (.trailers h)
  | error (e : E) (ended : Bool) : LastPoll ⟨.err e, ended⟩ (.error e)
  | done (ended : Bool) : LastPoll ⟨.done, ended⟩ .none
  | lastData (b : Bytes) : LastPoll ⟨.data b, true⟩ .none

/-- The response body ends, at a time and in a way: with its first last answer, or by being dropped before. -/
inductive BodyEnds : List (Nat × Ev E) → Nat → Eos E → Prop where
  | last (h : LastPoll p eos) : BodyEnds ((t, .body p) :: evs) t eos
  | dropped : BodyEnds ((t, .drop) :: evs) t .cancelled
  | later (hp : ∀ p eos, ev = .body p → ¬ LastPoll p eos) (hd : ev ≠ .drop) (h : BodyEnds evs t eos) :
      BodyEnds ((u, ev) :: evs) t eos

/-- A request ends: there is an error instead of a response, or the response has no body, or its body ends. A request
whose future is dropped before any of this does not end. -/
inductive Ends : List (Nat × Ev E) → Nat → Option Rsp → Eos E → Prop where
  | error : Ends ((t, .future (.err e)) :: evs) t none (.error e)
  | empty : Ends ((t, .future (.ok r true)) :: evs) t (some r) .none
  | body (h : BodyEnds evs t eos) : Ends ((u, .future (.ok r false)) :: evs) t (some r) eos
  | later (hp : ∀ p, ev = .future p → p = .pending) (hd : ev ≠ .drop) (h : Ends evs t r eos) :
      Ends ((u, ev) :: evs) t r eos

/-- How the end of a stream is shown to a labeler. -/
inductive Shown (cancelled : E) : Eos E → Res E → Prop where
  | none : Shown cancelled .none (.ok Option.none)
  | trailers : Shown cancelled (.trailers h) (.ok (some h))
  | error : Shown cancelled (.error e) (.err e)
  | cancelled : Shown cancelled .cancelled (.err cancelled)

/-- The label of a request: its labeler sees the response head, if any, and then the end. -/
def LabelOf (lab : Labeler Q E S L) (cancelled : E) (q : Q) (r : Option Rsp) (eos : Eos E) (l : L) : Prop :=
  ∃ s res, lab.make q = some s ∧ Shown cancelled eos res ∧
    l = lab.label (lab.fin (match r with
      | some r => lab.init s r
      | none => s) res)

/-- A request has come to its end, with a label. -/
def Outcome (lab : Labeler Q E S L) (cancelled : E) (t : Transcript Q E) (l : L) : Prop :=
  ∃ now r eos, Ends t.2.2 now r eos ∧ LabelOf lab cancelled t.2.1 r eos l

/-! ## The system is its requests -/

/-- What one request emits from a state. -/
def outs (step : F → Nat → Ev E → F × Option X) (f : F) : List (Nat × Ev E) → List X
  | [] => []
  | e :: evs => (step f e.1 e.2).2.toList ++ outs step (step f e.1 e.2).1 evs

/-- The state of one request. -/
def states (step : F → Nat → Ev E → F × Option X) (f : F) : List (Nat × Ev E) → F
  | [] => f
  | e :: evs => states step (step f e.1 e.2).1 evs

theorem states_snoc (step : F → Nat → Ev E → F × Option X) (f : F) (evs : List (Nat × Ev E)) (e : Nat × Ev E) :
    states step f (evs ++ [e]) = (step (states step f evs) e.1 e.2).1 := by
  induction evs generalizing f with
  | nil => rfl
  | cons a evs ih => simp [states, ih]

theorem outs_snoc (step : F → Nat → Ev E → F × Option X) (f : F) (evs : List (Nat × Ev E)) (e : Nat × Ev E) :
    outs step f (evs ++ [e]) = outs step f evs ++ (step (states step f evs) e.1 e.2).2.toList := by
  induction evs generalizing f with
  | nil => simp [outs, states]
  | cons a evs ih => simp [outs, states, ih]

theorem map_modify_eq_set {A B : Type} (f : A → B) (g : A → A) (l : List A) (i : Nat) (b : B)
    (h : ∀ a, l[i]? = some a → f (g a) = b) : (l.modify i g).map f = (l.map f).set i b := by
  induction l generalizing i with
  | nil => simp
  | cons a l ih =>
    cases i with
    | zero => simp [h a (by simp)]
    | succ i => simp [ih i (fun x hx => h x (by simpa using hx))]

theorem flatMap_modify_perm {A B : Type} (f : A → List B) (g : A → A) (l : List A) (i : Nat) (a : A) (out : List B)
    (ha : l[i]? = some a) (h : f (g a) = f a ++ out) : ((l.modify i g).flatMap f).Perm (l.flatMap f ++ out) := by
  induction l generalizing i with
  | nil => simp at ha
  | cons x l ih =>
    cases i with
    | zero =>
      simp only [List.getElem?_cons_zero, Option.some.injEq] at ha
      subst ha
      simp only [List.modify_zero_cons, List.flatMap_cons, h, List.append_assoc]
      exact (List.perm_append_comm).append_left _
    | succ i =>
      simp only [List.modify_succ_cons, List.flatMap_cons, List.append_assoc]
      exact (ih i (by simpa using ha)).append_left _

theorem run_sys (start : Nat → Q → F) (step : F → Nat → Ev E → F × Option X) (ops : List (Op Q E)) :
    (Sys.run start step ops).flows = (transcripts ops).map (fun t => states step (start t.1 t.2.1) t.2.2) ∧
    (Sys.run start step ops).emitted.Perm ((transcripts ops).flatMap fun t => outs step (start t.1 t.2.1) t.2.2) ∧
    (Sys.run start step ops).requests = (transcripts ops).length := by
  induction ops using snoc_induction with
  | nil => simp [Sys.run, transcripts]
  | snoc ops op ih =>
    obtain ⟨h1, h2, h3⟩ := ih
    have hr : Sys.run start step (ops ++ [op]) = (Sys.run start step ops).step start step op := by
      simp [Sys.run, List.foldl_append]
    rw [hr]
    cases op with
    | call now q =>
      have ht : transcripts (ops ++ [.call now q]) = transcripts ops ++ [(now, q, [])] := by
        simp [transcripts, List.foldl_append]
      rw [ht]
      refine ⟨?_, ?_, ?_⟩
      · simp [Sys.step, h1, states]
      · simp [Sys.step, outs]; exact h2
      · simp [Sys.step, h3]
    | «on» i now ev =>
      have ht : transcripts (ops ++ [.on i now ev]) =
          (transcripts ops).modify i fun t => (t.1, t.2.1, t.2.2 ++ [(now, ev)]) := by
        simp [transcripts, List.foldl_append]
      rw [ht]
      cases hi : (transcripts ops)[i]? with
      | none =>
        have hf : (Sys.run start step ops).flows[i]? = none := by rw [h1]; simp [hi]
        have hlen : (transcripts ops).length ≤ i := by simpa using hi
        have hm : (transcripts ops).modify i (fun t => (t.1, t.2.1, t.2.2 ++ [(now, ev)])) = transcripts ops := by
          exact List.modify_eq_self hlen
        rw [hm]
        simp only [Sys.step, hf]
        exact ⟨h1, h2, h3⟩
      | some t =>
        have hf : (Sys.run start step ops).flows[i]? = some (states step (start t.1 t.2.1) t.2.2) := by
          rw [h1]; simp [hi]
        simp only [Sys.step, hf]
        refine ⟨?_, ?_, ?_⟩
        · rw [h1]
          refine (map_modify_eq_set _ _ _ _ _ ?_).symm
          intro a ha
          rw [hi] at ha
          cases ha
          simp [states_snoc]
        · refine List.Perm.trans (h2.append_right _) ?_
          refine (flatMap_modify_perm _ _ _ i t _ hi ?_).symm
          simp [outs_snoc]
        · simp [h3]

end Verif.Prom
