import Verif.TonicStream.Model
import Verif.Env.ConfigProps
/-!
# C104: streams of the control plane end when they are silent or old, and not before
-/
namespace Verif.TonicStream

/-! ## Specification -/

/-- Something was received, or the stream said that it was over. -/
def Ans.got : Ans α → Bool
  | .pending => false
  | _ => true

/-- What is passed on of an answer. -/
def Ans.passed : Ans α → Option (Out α)
  | .pending => none
  | .item a => some (.item a)
  | .failed s => some (.failed s)
  | .ended => some .ended

/-- When something was last received. -/
def lastReceived (before : List (Nat × Ans α)) : Option Nat :=
  (before.reverse.find? fun p => p.2.got).map (·.1)

/-- By when something must be received: of a call at `t0`, within the initial limit, or the limit between items if there
is no initial one; after something has been received, within the limit between items. -/
def due (l : Limits) (t0 : Nat) (before : List (Nat × Ans α)) : Option Nat :=
  match lastReceived before with
  | none => (l.initial.or l.idle).map (t0 + ·)
  | some t => l.idle.map (t + ·)

/-- What a stream whose call was at `t0` and whose response was at `t1` is to answer, given all earlier polls. -/
def answer (l : Limits) (t0 t1 : Nat) (before : List (Nat × Ans α)) (now : Nat) (a : Ans α) : Out α :=
  if ∃ d, l.lifetime = some d ∧ t1 + d ≤ now then .ended
  else
    match a.passed with
    | some o => o
    | none =>
      if ∃ d, due l t0 before = some d ∧ d ≤ now then
        if lastReceived before = none then .failed .noUpdate else .ended
      else .pending (l.lifetime.map (t1 + ·)) (due l t0 before)

/-- All answers, each given the polls before it. -/
def answers (l : Limits) (t0 t1 : Nat) (before : List (Nat × Ans α)) : List (Nat × Ans α) → List (Out α)
  | [] => []
  | (now, a) :: ps => answer l t0 t1 before now a :: answers l t0 t1 (before ++ [(now, a)]) ps

/-- Time does not go back. -/
def Forward (t : Nat) : List (Nat × Ans α) → Prop
  | [] => True
  | (now, _) :: ps => t ≤ now ∧ Forward now ps

/-- The limits with which a stream works as meant: if the first item is limited, so are the others. -/
def Meant (l : Limits) : Prop := l.initial ≠ none → l.idle ≠ none

/-- A stream whose call was at `t0` and whose response came at `t1`. -/
def made (l : Limits) (t0 t1 : Nat) : Stream :=
  { lifetime := l.lifetime.map (t1 + ·), recv := newCall l t0, recvTimeout := l.idle, recvInit := true }

/-- The answers of a call until it has a response or has failed: it fails when nothing has come in time. -/
def callAnswers (l : Limits) (t0 : Nat) : List (Nat × CallAns) → List CallOut
  | [] => []
  | (_, .failed s) :: _ => [.failed s]
  | (now, .response) :: _ => [.response (made l t0 now)]
  | (now, .pending) :: cs =>
    if ∃ d, l.initial.or l.idle = some d ∧ t0 + d ≤ now then [.failed .noResponse]
    else .pending ((l.initial.or l.idle).map (t0 + ·)) :: callAnswers l t0 cs

/-- When the call had its response, if it had one. -/
def responded (l : Limits) (t0 : Nat) : List (Nat × CallAns) → Option Nat
  | [] => none
  | (_, .failed _) :: _ => none
  | (now, .response) :: _ => some now
  | (now, .pending) :: cs =>
    if ∃ d, l.initial.or l.idle = some d ∧ t0 + d ≤ now then none else responded l t0 cs

/-- What comes of the stream of a call at `t0` that had its response at `t1`. -/
def outputs (l : Limits) (t0 t1 : Nat) (ps : List (Nat × Ans α)) : List (Out α) :=
  (runCall l (newCall l t0) [(t1, .response)] ps).2

/-- The items that were received. -/
def itemsIn (ps : List (Nat × Ans α)) : List α :=
  ps.filterMap fun p => match p.2 with
    | .item a => some a
    | _ => none

/-- The items that were passed on. -/
def itemsOut (os : List (Out α)) : List α :=
  os.filterMap fun o => match o with
    | .item a => some a
    | _ => none

/-! ## Proofs -/

theorem fired_iff {d : Option Nat} {now : Nat} : fired d now = true ↔ ∃ x, d = some x ∧ x ≤ now := by
  cases d <;> simp [fired]

theorem lastReceived_concat (before : List (Nat × Ans α)) (now : Nat) (a : Ans α) :
    lastReceived (before ++ [(now, a)]) = if a.got then some now else lastReceived before := by
  unfold lastReceived
  rw [List.reverse_append]
  simp only [List.reverse_cons, List.reverse_nil, List.nil_append, List.cons_append, List.find?_cons]
  cases a.got <;> rfl

/-- What a stream has kept of what came before. -/
structure Keeps (l : Limits) (t0 t1 : Nat) (before : List (Nat × Ans α)) (s : Stream) : Prop where
  lifetime : s.lifetime = l.lifetime.map (t1 + ·)
  recvTimeout : s.recvTimeout = l.idle
  recvInit : s.recvInit = (lastReceived before).isNone
  recv : s.recv = due l t0 before

theorem Keeps.got {l : Limits} (m : Meant l) {t0 t1 now : Nat} {before : List (Nat × Ans α)} {s : Stream} {a : Ans α}
    (k : Keeps l t0 t1 before s) (h : a.got = true) : Keeps l t0 t1 (before ++ [(now, a)]) (s.received now) := by
  refine ⟨k.lifetime, k.recvTimeout, ?_, ?_⟩
  · rw [lastReceived_concat, h]; rfl
  · unfold due
    rw [lastReceived_concat, h]
    simp only [Stream.received, k.recvTimeout, if_true]
    cases e : l.idle with
    | some d => rfl
    | none =>
      have i : l.initial = none := by
        cases i : l.initial with
        | none => rfl
        | some _ => exact absurd e (m (by rw [i]; simp))
      rw [k.recv]
      unfold due
      cases lastReceived before <;> simp [i, e]

theorem Keeps.pending {l : Limits} {t0 t1 now : Nat} {before : List (Nat × Ans α)} {s : Stream}
    (k : Keeps l t0 t1 before s) : Keeps l t0 t1 (before ++ [(now, .pending)]) s := by
  have e : lastReceived (before ++ [(now, Ans.pending)]) = lastReceived before := by
    rw [lastReceived_concat]; rfl
  refine ⟨k.lifetime, k.recvTimeout, ?_, ?_⟩
  · rw [e]; exact k.recvInit
  · unfold due; rw [e]; exact k.recv

theorem lifetime_iff {l : Limits} {t1 now : Nat} :
    fired (l.lifetime.map (t1 + ·)) now = true ↔ ∃ d, l.lifetime = some d ∧ t1 + d ≤ now := by
  rw [fired_iff]
  cases l.lifetime <;> simp

theorem poll_answer {l : Limits} {t0 t1 now : Nat} {before : List (Nat × Ans α)} {s : Stream}
    (k : Keeps l t0 t1 before s) (a : Ans α) : (s.poll now a).1 = answer l t0 t1 before now a := by
  unfold Stream.poll answer
  rw [k.lifetime]
  by_cases h : fired (l.lifetime.map (t1 + ·)) now = true
  · rw [if_pos h, if_pos (lifetime_iff.mp h)]
  · rw [if_neg h, if_neg (fun x => h (lifetime_iff.mpr x))]
    cases a with
    | item a => rfl
    | failed s => rfl
    | ended => rfl
    | pending =>
      simp only [Ans.passed, k.recv, k.recvInit]
      by_cases h : fired (due l t0 before) now = true
      · rw [if_pos h, if_pos (fired_iff.mp h)]
        cases lastReceived before <;> rfl
      · rw [if_neg h, if_neg (fun x => h (fired_iff.mpr x))]

theorem poll_keeps {l : Limits} (m : Meant l) {t0 t1 now : Nat} {before : List (Nat × Ans α)} {s : Stream}
    (k : Keeps l t0 t1 before s) (a : Ans α) (h : ¬ fired s.lifetime now = true) :
    Keeps l t0 t1 (before ++ [(now, a)]) (s.poll now a).2 := by
  unfold Stream.poll
  rw [if_neg h]
  cases a with
  | item a => exact k.got m rfl
  | failed s => exact k.got m rfl
  | ended => exact k.got m rfl
  | pending =>
    dsimp only
    split <;> exact k.pending

theorem fired_mono {d : Option Nat} {a b : Nat} (h : a ≤ b) (f : fired d a = true) : fired d b = true := by
  obtain ⟨x, e, y⟩ := fired_iff.mp f
  exact fired_iff.mpr ⟨x, e, Nat.le_trans y h⟩

/-- Once the lifetime is over, there is nothing but the end. -/
theorem over_run {l : Limits} {t0 t1 : Nat} : ∀ (ps : List (Nat × Ans α)) {last : Nat} {before : List (Nat × Ans α)}
    {s : Stream}, Forward last ps → s.lifetime = l.lifetime.map (t1 + ·) → fired s.lifetime last = true →
    s.run ps = answers l t0 t1 before ps
  | [], _, _, _, _, _, _ => rfl
  | (now, a) :: ps, last, before, s, w, e, f => by
    have f' := fired_mono w.1 f
    have p : s.poll now a = (.ended, s) := by unfold Stream.poll; rw [if_pos f']
    unfold Stream.run answers
    rw [p, over_run ps w.2 e f']
    unfold answer
    rw [e] at f'
    rw [if_pos (lifetime_iff.mp f')]

theorem run_answers {l : Limits} (m : Meant l) {t0 t1 : Nat} : ∀ (ps : List (Nat × Ans α)) {last : Nat}
    {before : List (Nat × Ans α)} {s : Stream}, Forward last ps → Keeps l t0 t1 before s →
    s.run ps = answers l t0 t1 before ps
  | [], _, _, _, _, _ => rfl
  | (now, a) :: ps, last, before, s, w, k => by
    unfold Stream.run answers
    rw [poll_answer k]
    by_cases h : fired s.lifetime now = true
    · have p : s.poll now a = (.ended, s) := by unfold Stream.poll; rw [if_pos h]
      rw [p, over_run ps w.2 k.lifetime h]
    · rw [run_answers m ps w.2 (poll_keeps m k a h)]

theorem outputs_run (l : Limits) (t0 t1 : Nat) (ps : List (Nat × Ans α)) :
    outputs l t0 t1 ps = (made l t0 t1).run ps := rfl

theorem made_keeps (l : Limits) (t0 t1 : Nat) : Keeps (α := α) l t0 t1 [] (made l t0 t1) := ⟨rfl, rfl, rfl, rfl⟩

theorem fired_call {l : Limits} {t0 now : Nat} :
    fired (newCall l t0) now = true ↔ ∃ d, l.initial.or l.idle = some d ∧ t0 + d ≤ now := by
  unfold newCall
  rw [fired_iff]
  cases l.initial.or l.idle <;> simp

theorem answers_length (l : Limits) (t0 t1 : Nat) : ∀ (ps before : List (Nat × Ans α)),
    (answers l t0 t1 before ps).length = ps.length
  | [], _ => rfl
  | (now, a) :: ps, before => by
    unfold answers
    rw [List.length_cons, answers_length l t0 t1 ps, List.length_cons]

theorem answers_get (l : Limits) (t0 t1 : Nat) : ∀ (ps before qs : List (Nat × Ans α)) (now : Nat) (a : Ans α),
    (answers l t0 t1 before (ps ++ (now, a) :: qs))[ps.length]? = some (answer l t0 t1 (before ++ ps) now a)
  | [], before, qs, now, a => by simp [answers]
  | (n, b) :: ps, before, qs, now, a => by
    rw [List.cons_append]
    unfold answers
    rw [List.length_cons, List.getElem?_cons_succ, answers_get l t0 t1 ps, List.append_assoc]
    rfl

/-! ## Theorems -/

/-- **C104.**  A call at `t0` is answered as the service answers it, until the initial limit, or else the one between
items, is over: then it fails.  Before that it asks to be woken when it is over. -/
theorem C104_call (l : Limits) (t0 : Nat) (ps : List (Nat × Ans α)) (cs : List (Nat × CallAns)) :
    (runCall l (newCall l t0) cs ps).1 = callAnswers l t0 cs := by
  induction cs with
  | nil => rfl
  | cons c cs ih =>
    obtain ⟨now, a⟩ := c
    cases a with
    | failed s => rfl
    | response => rfl
    | pending =>
      unfold runCall pollCall callAnswers
      by_cases h : fired (newCall l t0) now = true
      · rw [if_pos h, if_pos (fired_call.mp h)]
      · rw [if_neg h, if_neg (fun x => h (fired_call.mpr x))]
        dsimp only
        rw [ih]; rfl

/-- **C104.**  And its stream answers each poll as the limits say, given what was received before. -/
theorem C104_exact (l : Limits) (m : Meant l) (t0 : Nat) (ps : List (Nat × Ans α)) (cs : List (Nat × CallAns)) :
    (∀ t1, responded l t0 cs = some t1 → Forward t1 ps →
      (runCall l (newCall l t0) cs ps).2 = answers l t0 t1 [] ps) ∧
    (responded l t0 cs = none → (runCall l (newCall l t0) cs ps).2 = []) := by
  induction cs with
  | nil => exact ⟨fun _ h => (nomatch h), fun _ => rfl⟩
  | cons c cs ih =>
    obtain ⟨now, a⟩ := c
    cases a with
    | failed s => exact ⟨fun _ h => (nomatch h), fun _ => rfl⟩
    | response =>
      refine ⟨fun t1 h w => ?_, fun h => nomatch h⟩
      cases h
      exact run_answers m ps w (made_keeps l t0 now)
    | pending =>
      unfold runCall pollCall responded
      by_cases h : fired (newCall l t0) now = true
      · rw [if_pos h, if_pos (fired_call.mp h)]
        exact ⟨fun _ h => (nomatch h), fun _ => rfl⟩
      · rw [if_neg h, if_neg (fun x => h (fired_call.mpr x))]
        exact ih

/-- One poll of a stream, after any others. -/
theorem outputs_get {l : Limits} (m : Meant l) {t0 t1 now : Nat} {ps qs : List (Nat × Ans α)} {a : Ans α}
    (w : Forward t1 (ps ++ (now, a) :: qs)) :
    (outputs l t0 t1 (ps ++ (now, a) :: qs))[ps.length]? = some (answer l t0 t1 ps now a) := by
  rw [outputs_run, run_answers m _ w (made_keeps l t0 t1), answers_get]
  rfl

/-- **C104.**  Not before time: a stream ends only if the service ended it, or its lifetime is over, or nothing has been
received for as long as there may be between items; and it fails for want of a first item only if there was none and the
time for it is over. -/
theorem C104_not_early (l : Limits) (m : Meant l) (t0 t1 now : Nat) (ps qs : List (Nat × Ans α)) (a : Ans α)
    (w : Forward t1 (ps ++ (now, a) :: qs)) :
    ((outputs l t0 t1 (ps ++ (now, a) :: qs))[ps.length]? = some .ended →
      a = .ended ∨ (∃ d, l.lifetime = some d ∧ t1 + d ≤ now) ∨
      (a = .pending ∧ ∃ t d, lastReceived ps = some t ∧ l.idle = some d ∧ t + d ≤ now)) ∧
    (∀ e, (outputs l t0 t1 (ps ++ (now, a) :: qs))[ps.length]? = some (.failed e) →
      a = .failed e ∨ (e = .noUpdate ∧ a = .pending ∧ lastReceived ps = none ∧
        ∃ d, l.initial.or l.idle = some d ∧ t0 + d ≤ now)) := by
  rw [outputs_get m w]
  unfold answer
  constructor
  · intro h
    by_cases f : ∃ d, l.lifetime = some d ∧ t1 + d ≤ now
    · exact .inr (.inl f)
    · rw [if_neg f] at h
      cases a with
      | item a => simp [Ans.passed] at h
      | failed s => simp [Ans.passed] at h
      | ended => exact .inl rfl
      | pending =>
        refine .inr (.inr ⟨rfl, ?_⟩)
        simp only [Ans.passed] at h
        split at h
        · rename_i g
          unfold due at g
          cases e : lastReceived ps with
          | none => rw [e] at h; simp at h
          | some t =>
            rw [e] at g
            cases i : l.idle with
            | none => rw [i] at g; simp at g
            | some d => rw [i] at g; exact ⟨t, d, rfl, rfl, by simpa using g⟩
        · simp at h
  · intro e h
    by_cases f : ∃ d, l.lifetime = some d ∧ t1 + d ≤ now
    · rw [if_pos f] at h; simp at h
    · rw [if_neg f] at h
      cases a with
      | item a => simp [Ans.passed] at h
      | failed s => simp [Ans.passed] at h; exact .inl (by rw [h])
      | ended => simp [Ans.passed] at h
      | pending =>
        refine .inr ?_
        simp only [Ans.passed] at h
        split at h
        · rename_i g
          unfold due at g
          cases r : lastReceived ps with
          | some t => rw [r] at h; simp at h
          | none =>
            rw [r] at g h
            refine ⟨by simpa using h.symm, rfl, rfl, ?_⟩
            cases i : l.initial.or l.idle with
            | none => rw [i] at g; simp at g
            | some d => rw [i] at g; exact ⟨d, rfl, by simpa using g⟩
        · simp at h

/-- **C104.**  Not later: a stream that is polled when its lifetime is over ends, whatever there is; and one polled when
nothing has been received in time, and nothing is there, ends, or fails if it is the first item that is wanting. -/
theorem C104_not_late (l : Limits) (m : Meant l) (t0 t1 now : Nat) (ps qs : List (Nat × Ans α)) (a : Ans α)
    (w : Forward t1 (ps ++ (now, a) :: qs)) :
    (∀ d, l.lifetime = some d → t1 + d ≤ now →
      (outputs l t0 t1 (ps ++ (now, a) :: qs))[ps.length]? = some .ended) ∧
    ((∀ d, l.lifetime = some d → now < t1 + d) → a = .pending →
      (∀ d, lastReceived ps = none → l.initial.or l.idle = some d → t0 + d ≤ now →
        (outputs l t0 t1 (ps ++ (now, a) :: qs))[ps.length]? = some (.failed .noUpdate)) ∧
      (∀ t d, lastReceived ps = some t → l.idle = some d → t + d ≤ now →
        (outputs l t0 t1 (ps ++ (now, a) :: qs))[ps.length]? = some .ended)) := by
  rw [outputs_get m w]
  unfold answer
  refine ⟨fun d e h => by rw [if_pos ⟨d, e, h⟩], fun f p => ?_⟩
  have f' : ¬ ∃ d, l.lifetime = some d ∧ t1 + d ≤ now := by
    rintro ⟨d, e, h⟩
    have := f d e
    omega
  rw [if_neg f']
  subst p
  simp only [Ans.passed]
  constructor
  · intro d r e h
    have : due l t0 ps = some (t0 + d) := by unfold due; rw [r]; simp [e]
    rw [if_pos ⟨_, this, h⟩, if_pos r]
  · intro t d r e h
    have : due l t0 ps = some (t + d) := by unfold due; rw [r]; simp [e]
    rw [if_pos ⟨_, this, h⟩, if_neg (by rw [r]; simp)]

/-- **C104.**  And it need not be polled by chance: when a stream answers that there is nothing yet, it has asked to be
woken at the first of the times at which a limit is over, these are yet to come, and if it is polled then with nothing
received it ends or fails.  There is no such time only if nothing limits it. -/
theorem C104_wakes (l : Limits) (m : Meant l) (t0 t1 now : Nat) (ps : List (Nat × Ans α)) (a : Ans α)
    (w : Forward t1 (ps ++ [(now, a)])) (x y : Option Nat)
    (h : (outputs l t0 t1 (ps ++ [(now, a)]))[ps.length]? = some (.pending x y)) :
    (∀ t, (x = some t ∨ y = some t) → now < t ∧
      ∃ o, (outputs l t0 t1 (ps ++ [(now, a), (t, .pending)]))[ps.length + 1]? = some o ∧
        (o = .ended ∨ o = .failed .noUpdate)) ∧
    (x = none ↔ l.lifetime = none) ∧ (l.idle ≠ none → y ≠ none) := by
  rw [outputs_get m w] at h
  unfold answer at h
  by_cases f : ∃ d, l.lifetime = some d ∧ t1 + d ≤ now
  · rw [if_pos f] at h; simp at h
  rw [if_neg f] at h
  cases a with
  | item a => simp [Ans.passed] at h
  | failed s => simp [Ans.passed] at h
  | ended => simp [Ans.passed] at h
  | pending =>
    simp only [Ans.passed] at h
    by_cases g : ∃ d, due l t0 ps = some d ∧ d ≤ now
    · rw [if_pos g] at h
      split at h <;> simp at h
    rw [if_neg g] at h
    simp only [Option.some.injEq, Out.pending.injEq] at h
    obtain ⟨hx, hy⟩ := h
    refine ⟨fun t ht => ?_, ?_, ?_⟩
    · have lt : now < t := by
        rcases ht with ht | ht
        · rw [ht] at hx
          cases e : l.lifetime with
          | none => rw [e] at hx; simp at hx
          | some d =>
            rw [e] at hx f
            simp at hx f
            omega
        · rw [ht] at hy
          rcases Nat.lt_or_ge now t with q | q
          · exact q
          · exact absurd ⟨t, hy, q⟩ g
      refine ⟨lt, ?_⟩
      have w' : ∀ (ps : List (Nat × Ans α)) (z : Nat), Forward z (ps ++ [(now, Ans.pending)]) →
          Forward z ((ps ++ [(now, Ans.pending)]) ++ [(t, Ans.pending)]) := by
        intro ps
        induction ps with
        | nil => exact fun z h => ⟨h.1, Nat.le_of_lt lt, trivial⟩
        | cons p ps ih => exact fun z h => ⟨h.1, ih _ h.2⟩
      have q := outputs_get (t0 := t0) m (w' ps t1 w)
      have e : ps ++ [(now, Ans.pending), (t, Ans.pending)] = (ps ++ [(now, Ans.pending)]) ++ [(t, Ans.pending)] := by
        simp
      rw [e]
      rw [List.length_append] at q
      refine ⟨_, q, ?_⟩
      unfold answer
      split
      · exact .inl rfl
      · rename_i nf
        have d : due l t0 (ps ++ [(now, Ans.pending)]) = some t := by
          rcases ht with ht | ht
          · rw [ht] at hx
            cases e : l.lifetime with
            | none => rw [e] at hx; simp at hx
            | some d =>
              rw [e] at hx nf
              simp at hx nf
              omega
          · unfold due
            rw [lastReceived_concat]
            simp only [Ans.got]
            rw [← ht, ← hy]
            rfl
        simp only [Ans.passed]
        rw [if_pos ⟨t, d, Nat.le_refl t⟩]
        split
        · exact .inr rfl
        · exact .inl rfl
    · rw [← hx]; cases l.lifetime <;> simp
    · intro i
      rw [← hy]
      unfold due
      cases e : l.idle with
      | none => exact absurd e i
      | some d => cases lastReceived ps <;> cases l.initial <;> simp

/-- The same, whatever the limits. -/
theorem run_items : ∀ (ps : List (Nat × Ans α)) {last : Nat} {s : Stream}, Forward last ps →
    itemsOut (s.run ps) = itemsIn (ps.takeWhile fun p => !fired s.lifetime p.1)
  | [], _, _, _ => rfl
  | (now, a) :: ps, last, s, w => by
    have q : ∀ s' : Stream, s'.lifetime = s.lifetime →
        itemsOut (s'.run ps) = itemsIn (ps.takeWhile fun p => !fired s.lifetime p.1) := by
      intro s' e
      rw [run_items ps w.2, e]
    unfold Stream.run
    by_cases f : fired s.lifetime now = true
    · have p : s.poll now a = (.ended, s) := by unfold Stream.poll; rw [if_pos f]
      rw [p]
      have z : itemsOut (s.run ps) = [] := by
        rw [q s rfl]
        cases ps with
        | nil => rfl
        | cons p ps =>
          rw [List.takeWhile_cons, fired_mono w.2.1 f]
          rfl
      simp only [List.takeWhile_cons, f]
      exact z
    · simp only [List.takeWhile_cons, f]
      cases a with
      | item a =>
        simp only [Stream.poll, if_neg f]
        have := q (s.received now) rfl
        simp only [itemsOut, itemsIn] at this ⊢
        simp [this]
      | failed e =>
        simp only [Stream.poll, if_neg f]
        have := q (s.received now) rfl
        simp only [itemsOut, itemsIn] at this ⊢
        simp [this]
      | ended =>
        simp only [Stream.poll, if_neg f]
        have := q (s.received now) rfl
        simp only [itemsOut, itemsIn] at this ⊢
        simp [this]
      | pending =>
        have := q s rfl
        simp only [Stream.poll, if_neg f]
        split
        · simp only [itemsOut, itemsIn] at this ⊢
          cases s.recvInit <;> simp [this]
        · simp only [itemsOut, itemsIn] at this ⊢
          simp [this]

/-- **C104.**  Whatever the limits, the items passed on are those received in the lifetime of the stream, all of them, in
order and unchanged. -/
theorem C104_items (l : Limits) (t0 t1 : Nat) (ps : List (Nat × Ans α)) (w : Forward t1 ps) :
    itemsOut (outputs l t0 t1 ps) =
      itemsIn (ps.takeWhile fun p => match l.lifetime with
        | some d => decide (p.1 < t1 + d)
        | none => true) := by
  rw [outputs_run, run_items ps w]
  congr 2
  funext p
  simp only [made]
  cases l.lifetime with
  | none => rfl
  | some d =>
    show (!decide (t1 + d ≤ p.1)) = decide (p.1 < t1 + d)
    by_cases h : p.1 < t1 + d
    · rw [decide_eq_true h, decide_eq_false (by omega)]; rfl
    · rw [decide_eq_false h, decide_eq_true (by omega)]; rfl

/-- **C104.**  Without limits a stream is as it would be by itself. -/
theorem C104_unlimited (t0 t1 : Nat) (ps : List (Nat × Ans α)) (w : Forward t1 ps) :
    outputs ⟨none, none, none⟩ t0 t1 ps = ps.map fun p => (p.2.passed).getD (.pending none none) := by
  rw [outputs_run, run_answers (fun h => absurd rfl h) ps w (made_keeps _ t0 t1)]
  generalize ([] : List (Nat × Ans α)) = before
  clear w
  induction ps generalizing before with
  | nil => rfl
  | cons p ps ih =>
    obtain ⟨now, a⟩ := p
    unfold answers
    rw [ih, List.map_cons]
    congr 1
    unfold answer
    have d : due ⟨none, none, none⟩ t0 before = none := by unfold due; cases lastReceived before <;> rfl
    cases a <;> simp [Ans.passed, d]

/-! ## Limits -/

/-- **C104, a limit.**  If the time for the first item is limited, and the time between items is not, the timer for the
first item goes on after it has come: whenever the stream is polled at that time or later and nothing is there, it ends,
although nothing limits the time between items. -/
theorem C104_limit_initial_only (i t0 t1 t2 now : Nat) (x : α) (h : t0 + i ≤ now) :
    outputs ⟨some i, none, none⟩ t0 t1 [(t2, .item x), (now, .pending)] = [.item x, .ended] := by
  simp [outputs, runCall, pollCall, newCall, Stream.run, Stream.poll, Stream.received, fired, h]

/-- **C104, a limit.**  The lifetime is that of the response: a call that is limited by nothing else never fails for
want of one. -/
theorem C104_limit_lifetime_from_response (d t0 : Nat) (ts : List Nat) :
    (runCall (α := α) ⟨none, none, some d⟩ (newCall ⟨none, none, some d⟩ t0) (ts.map fun t => (t, .pending)) []).1 =
      ts.map fun _ => .pending none := by
  rw [C104_call]
  induction ts with
  | nil => rfl
  | cons t ts ih => simp [callAnswers, ih]

/-- **C104, a limit.**  A stream that has ended for want of an item is not closed: one that comes later is passed on. -/
theorem C104_limit_not_fused (i t0 now : Nat) (x y : α) :
    outputs ⟨none, some i, none⟩ t0 t0 [(t0, .item x), (t0 + i, .pending), (t0 + i + now, .item y)] =
      [.item x, .ended, .item y] := by
  simp [outputs, runCall, pollCall, newCall, Stream.run, Stream.poll, Stream.received, fired]

/-! ## Instances -/

/-- Items, a gap, and the end. -/
example : outputs ⟨some 3, some 10, some 100⟩ 0 1
    [(1, .pending), (2, .item 'a'), (5, .pending), (11, .item 'b'), (20, .pending), (21, .pending)] =
    [.pending (some 101) (some 3), .item 'a', .pending (some 101) (some 12), .item 'b', .pending (some 101) (some 21),
      .ended] := by decide +kernel

example : Forward 1 [(1, Ans.pending), (2, .item 'a'), (5, .pending), (11, .item 'b'), (20, .pending), (21, .pending)] := by
  simp [Forward]

example : Meant ⟨some 3, some 10, some 100⟩ := fun _ h => nomatch h

/-- No first item. -/
example : outputs ⟨some 3, some 10, some 100⟩ 0 1 [(2, .pending), (3, (.pending : Ans Nat))] =
    [.pending (some 101) (some 3), .failed .noUpdate] := by decide +kernel

/-- No response. -/
example : (runCall (α := Nat) ⟨none, some 10, none⟩ (newCall ⟨none, some 10, none⟩ 5) [(5, .pending), (15, .pending)] []).1 =
    [.pending (some 15), .failed .noResponse] := by decide +kernel

/-- The lifetime. -/
example : outputs ⟨none, none, some 10⟩ 0 5 [(14, .item 'a'), (15, .item 'b')] = [.item 'a', .ended] := by decide +kernel

/-- A configuration accepts limits with which a stream does not work as meant. -/
example : (Env.parseConfig Env.exampleExt fun n =>
    if n = "LINKERD2_PROXY_CONTROL_STREAM_INITIAL_TIMEOUT" then .ok (some "3s".toList)
    else if n = "LINKERD2_PROXY_CONTROL_STREAM_IDLE_TIMEOUT" then .ok (some "".toList)
    else Env.exampleEnv n).map (·.policyLimits) =
    .ok ⟨some 3000000000, none, none⟩ := by decide +kernel

end Verif.TonicStream
