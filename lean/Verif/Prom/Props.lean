import Verif.Prom.Lemmas

/-!
# Request metrics: properties

C82: every request that comes to an end is counted exactly once, under the label of how it ended, whatever other requests
do meanwhile. C83: durations are observed exactly once per ended request, with the time they took, and every data frame is
observed with its size.
-/

namespace Verif.Prom

variable {E L S Q F X : Type}

/-! ## Ends are unique -/

theorem lastPoll_iff (p : BodyPoll E) (eos : Eos E) : LastPoll p eos ↔ eosRef p = some eos := by
  obtain ⟨p, ended⟩ := p
  constructor
  · intro h
    cases h <;> rfl
  · intro h
    cases p with
    | pending => simp [eosRef] at h
    | data b =>
      cases ended with
      | true =>
        simp only [eosRef, if_true, Option.some.injEq] at h
        subst h
        exact .lastData b
      | false => simp [eosRef] at h
    | trailers t =>
      simp only [eosRef, Option.some.injEq] at h
      subst h
      exact .trailers t ended
    | err e =>
      simp only [eosRef, Option.some.injEq] at h
      subst h
      exact .error e ended
    | done =>
      simp only [eosRef, Option.some.injEq] at h
      subst h
      exact .done ended

/-- When and how a response body ends. -/
def bodyEnd : List (Nat × Ev E) → Option (Nat × Eos E)
  | [] => none
  | (t, .body p) :: evs => match eosRef p with
    | some eos => some (t, eos)
    | none => bodyEnd evs
  | (t, .drop) :: _ => some (t, .cancelled)
  | _ :: evs => bodyEnd evs

/-- When and how a request ends. -/
def endOf : List (Nat × Ev E) → Option (Nat × Option Rsp × Eos E)
  | [] => none
  | (t, .future (.err e)) :: _ => some (t, none, .error e)
  | (t, .future (.ok r true)) :: _ => some (t, some r, .none)
  | (_, .future (.ok r false)) :: evs => (bodyEnd evs).map fun x => (x.1, some r, x.2)
  | (_, .drop) :: _ => none
  | _ :: evs => endOf evs

theorem bodyEnds_iff (evs : List (Nat × Ev E)) (t : Nat) (eos : Eos E) :
    BodyEnds evs t eos ↔ bodyEnd evs = some (t, eos) := by
  constructor
  · intro h
    induction h with
    | last h => simp [bodyEnd, (lastPoll_iff _ _).1 h]
    | dropped => rfl
    | @later ev evs t eos u hp hd h ih =>
      cases ev with
      | body p =>
        have : eosRef p = none := by
          cases he : eosRef p with
          | none => rfl
          | some x => exact absurd ((lastPoll_iff p x).2 he) (hp p x rfl)
        simp [bodyEnd, this, ih]
      | drop => exact absurd rfl hd
      | future p => simpa [bodyEnd] using ih
      | reqPoll b => simpa [bodyEnd] using ih
      | reqDrop => simpa [bodyEnd] using ih
  · intro h
    induction evs with
    | nil => simp [bodyEnd] at h
    | cons x evs ih =>
      obtain ⟨u, ev⟩ := x
      cases ev with
      | body p =>
        cases he : eosRef p with
        | none =>
          simp only [bodyEnd, he] at h
          refine .later (fun p' eos' e hl => ?_) (by simp) (ih h)
          cases e
          rw [(lastPoll_iff _ _).1 hl] at he
          cases he
        | some x =>
          simp only [bodyEnd, he, Option.some.injEq, Prod.mk.injEq] at h
          obtain ⟨rfl, rfl⟩ := h
          exact .last ((lastPoll_iff _ _).2 he)
      | drop =>
        simp only [bodyEnd, Option.some.injEq, Prod.mk.injEq] at h
        obtain ⟨rfl, rfl⟩ := h
        exact .dropped
      | future p => exact .later (fun _ _ e => by cases e) (by simp) (ih (by simpa [bodyEnd] using h))
      | reqPoll b => exact .later (fun _ _ e => by cases e) (by simp) (ih (by simpa [bodyEnd] using h))
      | reqDrop => exact .later (fun _ _ e => by cases e) (by simp) (ih (by simpa [bodyEnd] using h))

theorem ends_iff (evs : List (Nat × Ev E)) (t : Nat) (r : Option Rsp) (eos : Eos E) :
    Ends evs t r eos ↔ endOf evs = some (t, r, eos) := by
  constructor
  · intro h
    induction h with
    | error => rfl
    | empty => rfl
    | body h => simp [endOf, (bodyEnds_iff _ _ _).1 h]
    | @later ev evs t r eos u hp hd h ih =>
      cases ev with
      | future p =>
        cases hp p rfl
        simpa [endOf] using ih
      | drop => exact absurd rfl hd
      | body p => simpa [endOf] using ih
      | reqPoll b => simpa [endOf] using ih
      | reqDrop => simpa [endOf] using ih
  · intro h
    induction evs with
    | nil => simp [endOf] at h
    | cons x evs ih =>
      obtain ⟨u, ev⟩ := x
      cases ev with
      | future p =>
        cases p with
        | pending =>
          exact .later (fun p e => by cases e; rfl) (by simp) (ih (by simpa [endOf] using h))
        | err e =>
          simp only [endOf, Option.some.injEq, Prod.mk.injEq] at h
          obtain ⟨rfl, rfl, rfl⟩ := h
          exact .error
        | ok r' ended =>
          cases ended with
          | true =>
            simp only [endOf, Option.some.injEq, Prod.mk.injEq] at h
            obtain ⟨rfl, rfl, rfl⟩ := h
            exact .empty
          | false =>
            simp only [endOf, Option.map_eq_some_iff] at h
            obtain ⟨⟨t', e'⟩, h1, h2⟩ := h
            cases h2
            exact .body ((bodyEnds_iff _ _ _).2 h1)
      | drop => simp [endOf] at h
      | body p => exact .later (fun _ e => by cases e) (by simp) (ih (by simpa [endOf] using h))
      | reqPoll b => exact .later (fun _ e => by cases e) (by simp) (ih (by simpa [endOf] using h))
      | reqDrop => exact .later (fun _ e => by cases e) (by simp) (ih (by simpa [endOf] using h))

theorem shown_iff (cancelled : E) (eos : Eos E) (res : Res E) :
    Shown cancelled eos res ↔ res = (match eos with
      | .none => .ok none
      | .trailers h => .ok (some h)
      | .error e => .err e
      | .cancelled => .err cancelled) := by
  constructor
  · intro h
    cases h <;> rfl
  · intro h
    cases eos <;> subst h
    · exact .none
    · exact .trailers
    · exact .error
    · exact .cancelled

/-! ## One request -/

theorem outs_quiet (lab : Labeler Q E S L) (c : E) (evs : List (Nat × Ev E)) :
    outs (statusStep lab c) (.streaming ⟨none⟩) evs = [] ∧ outs (statusStep lab c) .gone evs = [] ∧
    outs (statusStep lab c) .passthru evs = [] := by
  induction evs with
  | nil => exact ⟨rfl, rfl, rfl⟩
  | cons y evs ih =>
    obtain ⟨u, ev⟩ := y
    refine ⟨?_, ?_, ?_⟩
    · cases ev with
      | body p => cases he : eosRef p <;> simp [outs, statusStep, EosBody.poll, he, ih.1]
      | future p => simp [outs, statusStep, ih.1]
      | drop => simp [outs, statusStep, EosBody.drop, ih.2.1]
      | reqPoll b => simp [outs, statusStep, ih.1]
      | reqDrop => simp [outs, statusStep, ih.1]
    · simp [outs, statusStep, ih.2.1]
    · cases ev <;> simp [outs, statusStep, ih.2.1, ih.2.2]

theorem outs_streaming (lab : Labeler Q E S L) (c : E) (s : S) (evs : List (Nat × Ev E)) :
    outs (statusStep lab c) (.streaming ⟨some s⟩) evs = ((bodyEnd evs).map fun x => onEos lab c s x.2).toList := by
  induction evs with
  | nil => rfl
  | cons x evs ih =>
    obtain ⟨t, ev⟩ := x
    have hq := outs_quiet lab c evs
    cases ev with
    | body p =>
      cases he : eosRef p with
      | none => simp [outs, statusStep, EosBody.poll, he, bodyEnd, ih]
      | some eos => simp [outs, statusStep, EosBody.poll, he, bodyEnd, hq.1]
    | drop => simp [outs, statusStep, EosBody.drop, bodyEnd, hq.2.1]
    | future p => simpa [outs, statusStep, bodyEnd] using ih
    | reqPoll b => simpa [outs, statusStep, bodyEnd] using ih
    | reqDrop => simpa [outs, statusStep, bodyEnd] using ih

theorem outs_waiting (lab : Labeler Q E S L) (c : E) (s : S) (evs : List (Nat × Ev E)) :
    outs (statusStep lab c) (.waiting s) evs =
      ((endOf evs).map fun x => onEos lab c (match x.2.1 with
        | some r => lab.init s r
        | none => s) x.2.2).toList := by
  induction evs with
  | nil => rfl
  | cons x evs ih =>
    obtain ⟨t, ev⟩ := x
    have hq := outs_quiet lab c evs
    cases ev with
    | future p =>
      cases p with
      | pending => simpa [outs, statusStep, endOf] using ih
      | err e => simp [outs, statusStep, endOf, hq.2.1]
      | ok r ended =>
        cases ended with
        | true => simp [outs, statusStep, EosBody.new, endOf, hq.1]
        | false =>
          simp only [outs, statusStep, EosBody.new, endOf]
          simp [outs_streaming, Function.comp_def]
    | drop => simp [outs, statusStep, endOf, hq.2.1]
    | body p => simpa [outs, statusStep, endOf] using ih
    | reqPoll b => simpa [outs, statusStep, endOf] using ih
    | reqDrop => simpa [outs, statusStep, endOf] using ih

theorem outs_status (lab : Labeler Q E S L) (c : E) (t : Transcript Q E) :
    (∀ l, Outcome lab c t l ↔ l ∈ outs (statusStep lab c) (statusStart lab t.1 t.2.1) t.2.2) ∧
    (outs (statusStep lab c) (statusStart lab t.1 t.2.1) t.2.2).length ≤ 1 := by
  obtain ⟨now, q, evs⟩ := t
  cases hm : lab.make q with
  | none =>
    have h : outs (statusStep lab c) (statusStart lab now q) evs = [] := by
      simp [statusStart, hm, outs_quiet lab c evs]
    constructor
    · intro l
      simp only [h, List.not_mem_nil, iff_false]
      rintro ⟨_, _, _, _, s, _, h, _⟩
      rw [hm] at h
      cases h
    · simp [h]
  | some s =>
    have h := outs_waiting lab c s evs
    simp only [statusStart, hm]
    rw [h]
    constructor
    · intro l
      constructor
      · rintro ⟨t, r, eos, h1, s', res, h2, h3, rfl⟩
        rw [hm] at h2
        cases h2
        rw [(ends_iff _ _ _ _).1 h1]
        rw [shown_iff] at h3
        subst h3
        simp [onEos]
        cases r <;> cases eos <;> rfl
      · intro hl
        cases he : endOf evs with
        | none => simp [he] at hl
        | some x =>
          obtain ⟨t, r, eos⟩ := x
          rw [he] at hl
          simp only [Option.map_some, Option.toList_some, List.mem_singleton] at hl
          exact ⟨t, r, eos, (ends_iff _ _ _ _).2 he, s, _, hm, (shown_iff _ _ _).2 rfl, hl⟩
    · cases endOf evs <;> simp

theorem count_flatMap_once {A B : Type} [BEq B] [LawfulBEq B] (f : A → List B) (ts : List A) (b : B) (P : A → Prop)
    [DecidablePred P] (h : ∀ t ∈ ts, (P t ↔ b ∈ f t) ∧ (f t).length ≤ 1) :
    (ts.flatMap f).count b = (ts.filter P).length := by
  induction ts with
  | nil => rfl
  | cons t ts ih =>
    have ht := h t (by simp)
    have ih := ih (fun x hx => h x (by simp [hx]))
    rw [List.flatMap_cons, List.count_append, ih]
    have h1 := ht.2
    have h2 := ht.1
    cases hf : f t with
    | nil =>
      rw [hf] at h2
      simp at h2
      simp [h2]
    | cons x xs =>
      rw [hf] at h1 h2
      simp only [List.length_cons] at h1
      have : xs = [] := by
        cases xs with
        | nil => rfl
        | cons y ys => simp at h1
      subst this
      by_cases hx : x = b
      · subst hx
        simp at h2
        simp [h2]
        omega
      · have : ¬ P t := fun hp => hx (by simpa [eq_comm] using h2.1 hp)
        simp [this, hx]

/-! ## C82 -/

open Classical in
/-- C82. Over every history of any number of concurrent requests, the status counter of a label is the number of requests
that have come to an end with that label. -/
theorem C82_each_end_is_counted_once [DecidableEq L] (lab : Labeler Q E S L) (cancelled : E) (ops : List (Op Q E)) (l : L) :
    statuses lab cancelled ops l = ((transcripts ops).filter fun t => Outcome lab cancelled t l).length := by
  unfold statuses
  rw [(run_sys (statusStart lab) (statusStep lab cancelled) ops).2.1.count_eq]
  apply count_flatMap_once
  intro t _
  exact ⟨(outs_status lab cancelled t).1 l, (outs_status lab cancelled t).2⟩

/-- C82. A request has at most one outcome: it is never counted under two labels. -/
theorem C82_one_label (lab : Labeler Q E S L) (cancelled : E) (t : Transcript Q E) (l l' : L)
    (h : Outcome lab cancelled t l) (h' : Outcome lab cancelled t l') : l = l' := by
  obtain ⟨h1, h2⟩ := outs_status lab cancelled t
  have a := (h1 l).1 h
  have b := (h1 l').1 h'
  revert a b h2
  generalize outs _ _ _ = o
  intro h2 a b
  match o, h2, a, b with
  | [x], _, a, b => simp at a b; rw [a, b]
  | _ :: _ :: _, h2, _, _ => simp at h2

/-- The number of requests dispatched is what `CountRequests` says. -/
theorem C82_requests (lab : Labeler Q E S L) (cancelled : E) (ops : List (Op Q E)) :
    (Sys.run (statusStart lab) (statusStep lab cancelled) ops).requests = (transcripts ops).length :=
  (run_sys _ _ _).2.2

open Classical in
/-- C82. The request counter is the number of recorded ends plus the requests that have not come to an end or are not
recorded: nothing is lost. -/
theorem C82_requests_are_accounted_for (lab : Labeler Q E S L) (cancelled : E) (ops : List (Op Q E)) :
    (Sys.run (statusStart lab) (statusStep lab cancelled) ops).requests =
      (Sys.run (statusStart lab) (statusStep lab cancelled) ops).emitted.length +
      ((transcripts ops).filter fun t => ¬ ∃ l, Outcome lab cancelled t l).length := by
  rw [C82_requests, (run_sys (statusStart lab) (statusStep lab cancelled) ops).2.1.length_eq]
  induction transcripts ops with
  | nil => rfl
  | cons t ts ih =>
    obtain ⟨h1, h2⟩ := outs_status lab cancelled t
    simp only [List.flatMap_cons, List.length_append, List.length_cons, ih]
    revert h1 h2
    generalize outs _ _ t.2.2 = o
    intro h1 h2
    by_cases h : ∃ l, Outcome lab cancelled t l
    · obtain ⟨l, hl⟩ := h
      have hm := (h1 l).1 hl
      have ho : o.length = 1 := by
        have := List.length_pos_of_mem hm
        omega
      have hf : ¬ (¬ ∃ l, Outcome lab cancelled t l) := fun hn => hn ⟨l, hl⟩
      rw [List.filter_cons_of_neg (by simpa using ⟨l, hl⟩)]
      omega
    · have ho : o.length = 0 := by
        match o, h1 with
        | [], _ => rfl
        | x :: _, h1 => exact absurd ⟨x, (h1 x).2 (by simp)⟩ h
      rw [List.filter_cons_of_pos (by simpa using h)]
      simp only [List.length_cons]
      omega

/-- C82. Once the response body of a recorded request is gone, the request has an outcome. -/
theorem C82_dropped_bodies_are_counted (lab : Labeler Q E S L) (cancelled : E) (now : Nat) (q : Q) (s : S)
    (before after rest : List (Nat × Ev E)) (t u : Nat) (r : Rsp) (ended : Bool) (h : lab.make q = some s)
    (hb : ∀ e ∈ before, e.2 = .future .pending ∨ (∃ b, e.2 = .reqPoll b) ∨ e.2 = .reqDrop) :
    ∃ l, Outcome lab cancelled
      (now, q, before ++ [(t, .future (.ok r ended))] ++ after ++ [(u, .drop)] ++ rest) l := by
  have hbody : ∀ after : List (Nat × Ev E), ∃ x, bodyEnd (after ++ (u, .drop) :: rest) = some x := by
    intro after
    induction after with
    | nil => exact ⟨_, rfl⟩
    | cons e after ih =>
      obtain ⟨w, ev⟩ := e
      cases ev with
      | body p =>
        cases he : eosRef p with
        | none => simpa [bodyEnd, he] using ih
        | some x => exact ⟨(w, x), by simp [bodyEnd, he]⟩
      | drop => exact ⟨_, rfl⟩
      | future p => simpa [bodyEnd] using ih
      | reqPoll b => simpa [bodyEnd] using ih
      | reqDrop => simpa [bodyEnd] using ih
  have hend : ∃ x, endOf (before ++ (t, .future (.ok r ended)) :: (after ++ (u, .drop) :: rest)) = some x := by
    induction before with
    | nil =>
      cases ended with
      | true => exact ⟨_, rfl⟩
      | false =>
        obtain ⟨x, hx⟩ := hbody after
        exact ⟨_, by simp [endOf, hx]; rfl⟩
    | cons e before ih =>
      obtain ⟨w, ev⟩ := e
      have := hb (w, ev) (by simp)
      have ih := ih (fun e he => hb e (by simp [he]))
      rcases this with h | ⟨b, h⟩ | h <;> (simp only at h; subst h; simpa [endOf] using ih)
  obtain ⟨⟨t', r', eos⟩, hx⟩ := hend
  refine ⟨_, t', r', eos, (ends_iff _ _ _ _).2 ?_, s, _, h, (shown_iff _ _ _).2 rfl, rfl⟩
  simpa using hx

/-- C82. The wrapped body forwards what the inner body answers. -/
theorem C82_frames_are_unchanged (b : EosBody S) (p : BodyPoll E) : (b.poll p).2.2 = p.polled := by
  unfold EosBody.poll
  cases eosRef p with
  | none => rfl
  | some eos => cases b.callback <;> rfl

/-- C82. The wrapped body says that it has ended exactly when its end was recorded: never before an answer of the inner
body that ends it. -/
theorem C82_ended_iff_recorded (b : EosBody S) (p : BodyPoll E) :
    (b.poll p).1.isEndStream = true ↔ b.isEndStream = true ∨ ∃ eos, LastPoll p eos := by
  simp only [lastPoll_iff]
  unfold EosBody.poll EosBody.isEndStream
  cases he : eosRef p with
  | none => simp
  | some eos => cases hc : b.callback <;> simp [hc]

/-- Limit: a request that is cancelled before its response is not counted by the status counter. -/
theorem C82_limit_cancelled_before_the_response (lab : Labeler Q E S L) (cancelled : E) (now t : Nat) (q : Q)
    (rest : List (Nat × Ev E)) (l : L) : ¬ Outcome lab cancelled (now, q, (t, .drop) :: rest) l := by
  rintro ⟨u, r, eos, h, _⟩
  rw [ends_iff] at h
  simp [endOf] at h

/-! ### The labels -/

/-- C82. HTTP statuses: the status of the response, and none if there was no response. -/
theorem C82_http_label (cancelled : E) (q : Q) (r : Option Rsp) (eos : Eos E) (l : Option Nat) :
    LabelOf (httpLabeler : Labeler Q E _ _) cancelled q r eos l ↔ l = r.map (·.status) := by
  constructor
  · rintro ⟨s, res, hs, _, rfl⟩
    simp only [httpLabeler, Option.some.injEq] at hs
    subst hs
    cases r <;> rfl
  · rintro rfl
    refine ⟨none, _, rfl, (shown_iff _ _ _).2 rfl, ?_⟩
    cases r <;> rfl

/-- C82. gRPC statuses: that of the trailers if there are any; otherwise that of the response head. -/
theorem C82_grpc_label (cancelled : E) (q : Q) (r : Option Rsp) (eos : Eos E) (l : Option Nat) :
    LabelOf (grpcLabeler : Labeler Q E _ _) cancelled q r eos l ↔
      (∃ t, eos = .trailers t ∧ l = grpcStatus t) ∨
      ((∀ t, eos ≠ .trailers t) ∧ l = r.bind fun r => grpcStatus r.headers) := by
  constructor
  · rintro ⟨s, res, hs, hr, rfl⟩
    simp only [grpcLabeler, Option.some.injEq] at hs
    subst hs
    cases hr with
    | trailers => exact .inl ⟨_, rfl, rfl⟩
    | none => exact .inr ⟨by simp, by cases r <;> rfl⟩
    | error => exact .inr ⟨by simp, by cases r <;> rfl⟩
    | cancelled => exact .inr ⟨by simp, by cases r <;> rfl⟩
  · intro h
    refine ⟨none, _, rfl, (shown_iff _ _ _).2 rfl, ?_⟩
    rcases h with ⟨t, rfl, rfl⟩ | ⟨h, rfl⟩
    · rfl
    · cases eos with
      | trailers t => exact absurd rfl (h t)
      | none => cases r <;> rfl
      | error e => cases r <;> rfl
      | cancelled => cases r <;> rfl

/-- Limit: trailers without a gRPC status hide the status of the response head. -/
theorem C82_limit_trailers_hide_the_head (cancelled : E) (q : Q) :
    LabelOf (grpcLabeler : Labeler Q E _ _) cancelled q (some ⟨200, [("grpc-status", ['0'])]⟩) (.trailers [])
      none := ⟨none, _, rfl, (shown_iff _ _ _).2 rfl, rfl⟩

/-- The gRPC code that a header value stands for: its decimal notation, and `Unknown` for anything that is no code. -/
theorem C82_grpc_code (b : List Char) (n : Nat) (h : n ≤ 16) (hn : n ≠ 2) :
    codeFromBytes b = n ↔ b = (toString n).toList := by
  constructor
  · intro hb
    match b with
    | [] => simp [codeFromBytes] at hb; omega
    | [c] =>
      simp only [codeFromBytes] at hb
      split at hb
      · rename_i hc
        have h1 : 48 ≤ c.toNat := hc.1
        have h2 : c.toNat ≤ 57 := hc.2
        have hcc : c = Char.ofNat (48 + n) := by
          have : 48 + n = c.toNat := by omega
          rw [this, Char.ofNat_toNat]
        subst hcc
        have hn9 : n ≤ 9 := by omega
        clear h1 h2 hc hb h
        match n, hn9 with
        | 0, _ | 1, _ | 2, _ | 3, _ | 4, _ | 5, _ | 6, _ | 7, _ | 8, _ | 9, _ => rfl
      · omega
    | [a, c] =>
      by_cases ha : a = '1'
      · subst ha
        simp only [codeFromBytes] at hb
        split at hb
        · rename_i hc
          have h1 : 48 ≤ c.toNat := hc.1
          have h2 : c.toNat ≤ 54 := hc.2
          have hcc : c = Char.ofNat (38 + n) := by
            have : 38 + n = c.toNat := by omega
            rw [this, Char.ofNat_toNat]
          subst hcc
          have hn10 : 10 ≤ n := by omega
          clear h1 h2 hc hb
          have : n = 10 ∨ n = 11 ∨ n = 12 ∨ n = 13 ∨ n = 14 ∨ n = 15 ∨ n = 16 := by omega
          rcases this with rfl | rfl | rfl | rfl | rfl | rfl | rfl <;> rfl
        · omega
      · simp [codeFromBytes, ha] at hb
        omega
    | _ :: _ :: _ :: _ => simp [codeFromBytes] at hb; omega
  · rintro rfl
    have : n = 0 ∨ n = 1 ∨ n = 2 ∨ n = 3 ∨ n = 4 ∨ n = 5 ∨ n = 6 ∨ n = 7 ∨ n = 8 ∨ n = 9 ∨ n = 10 ∨ n = 11 ∨ n = 12 ∨
        n = 13 ∨ n = 14 ∨ n = 15 ∨ n = 16 := by omega
    rcases this with rfl | rfl | rfl | rfl | rfl | rfl | rfl | rfl | rfl | rfl | rfl | rfl | rfl | rfl | rfl | rfl | rfl <;>
      rfl

/-- The error labels and what they stand for: some cause of the error. -/
def Means : ErrLabel → Cause → Prop
  | .failFast, c => c = .failFast
  | .loadShed, c => c = .loadShed
  | .requestTimeout, c => c = .streamDeadline
  | .responseHeadersTimeout, c => c = .responseHeadersTimeout
  | .responseStreamTimeout, c => c = .responseStreamTimeout
  | .idleTimeout, c => c = .streamIdle
  | .cancel, c => c = .h2 (.reset 8)
  | .refused, c => c = .h2 (.reset 7)
  | .enhanceYourCalm, c => c = .h2 (.reset 11)
  | .reset, c => ∃ n, c = .h2 (.reset n) ∧ n ≠ 8 ∧ n ≠ 7 ∧ n ≠ 11
  | .goAway, c => c = .h2 .goAway
  | .io, c => c = .h2 .io
  | .unknown, _ => False

/-- A cause that no label and no status stands for. -/
def Unlabelled (c : Cause) : Prop := (∃ n, c = .other n) ∨ c = .h2 .other

/-- C82. An error label other than unknown names a cause of the error; a status is that of a redirect or of an injected
failure among the causes. -/
theorem C82_error_labels_name_a_cause (chain : List Cause) :
    (∀ l, newOrStatus chain = .inl l → l ≠ .unknown → ∃ c ∈ chain, Means l c) ∧
    (∀ s, newOrStatus chain = .inr s →
      .redirect s ∈ chain ∨ .injected s ∈ chain ∨ .grpcInjected s ∈ chain) := by
  unfold newOrStatus
  constructor
  · intro l h hl
    repeat' split at h
    all_goals first
      | (injection h with h; subst h)
      | cases h
    all_goals first
      | exact absurd rfl hl
      | (rename_i hc; exact ⟨_, List.contains_iff_mem.1 hc, rfl⟩)
      | skip
    rename_i x hx
    rw [Option.bind_eq_some_iff] at hx
    obtain ⟨e, he, hle⟩ := hx
    obtain ⟨c, hc, hce⟩ := List.exists_of_findSome?_eq_some he
    cases c with
    | h2 e' =>
      simp only [Option.some.injEq] at hce
      subst hce
      refine ⟨_, hc, ?_⟩
      cases e' with
      | reset r =>
        simp only [h2Label, Option.some.injEq] at hle
        subst hle
        by_cases h8 : r = 8
        · subst h8; rfl
        · by_cases h7 : r = 7
          · subst h7; rfl
          · by_cases h11 : r = 11
            · subst h11; rfl
            · simp only [h8, h7, h11, if_false]
              exact ⟨r, rfl, h8, h7, h11⟩
      | goAway => cases hle; rfl
      | io => cases hle; rfl
      | other => cases hle
    | _ => cases hce
  · intro s h
    have hf : ∀ (p : Cause → Option Nat) (k : Nat → Cause), (∀ c n, p c = some n → c = k n) →
        ∀ n, chain.findSome? p = some n → k n ∈ chain := by
      intro p k hp n hn
      obtain ⟨c, hc, hcn⟩ := List.exists_of_findSome?_eq_some hn
      rw [← hp c n hcn]
      exact hc
    repeat' split at h
    all_goals first
      | cases h
      | skip
    · rename_i hx
      refine .inl (hf _ .redirect ?_ _ hx)
      intro c n
      cases c <;> simp
    · rename_i hx
      refine .inr (.inl (hf _ .injected ?_ _ hx))
      intro c n
      cases c <;> simp
    · rename_i hx
      refine .inr (.inr (hf _ .grpcInjected ?_ _ hx))
      intro c n
      cases c <;> simp

/-- C82. An error is unknown only if its causes include none that has a label, but for HTTP/2 errors behind a first
HTTP/2 error without one. -/
theorem C82_unknown_errors (chain : List Cause) (h : newOrStatus chain = .inl .unknown) :
    (∀ c ∈ chain, Unlabelled c) ∨ .h2 .other ∈ chain := by
  unfold newOrStatus at h
  split at h
  · cases h
  rename_i h1
  split at h
  · cases h
  rename_i h2
  split at h
  · cases h
  rename_i h3
  split at h
  · cases h
  rename_i h4
  split at h
  · cases h
  rename_i h5
  split at h
  · cases h
  rename_i h6
  split at h
  · cases h
  rename_i h7
  split at h
  · cases h
  rename_i h8
  split at h
  · cases h
  rename_i h9
  simp only [List.contains_iff_mem] at h1 h2 h6 h7 h8 h9
  rw [List.findSome?_eq_none_iff] at h3 h4 h5
  have hbind : (chain.findSome? (fun | .h2 e => some e | _ => none)).bind h2Label = none := by
    split at h
    · rename_i l hl
      obtain ⟨e, _, hle⟩ := Option.bind_eq_some_iff.1 hl
      cases e <;> simp only [h2Label, Option.some.injEq] at hle
      · subst hle
        injection h with h
        repeat' split at h
        all_goals cases h
      · subst hle; cases h
      · subst hle; cases h
      · cases hle
    · assumption
  cases hf : chain.findSome? (fun | .h2 e => some e | _ => none) with
  | some e =>
    obtain ⟨c, hc, hce⟩ := List.exists_of_findSome?_eq_some hf
    rw [hf] at hbind
    cases c with
    | h2 e' =>
      simp only [Option.some.injEq] at hce
      subst hce
      cases e' with
      | other => exact .inr hc
      | reset r => cases hbind
      | goAway => cases hbind
      | io => cases hbind
    | _ => cases hce
  | none =>
    rw [List.findSome?_eq_none_iff] at hf
    refine .inl fun c hc => ?_
    cases c with
    | failFast => exact absurd hc h1
    | loadShed => exact absurd hc h2
    | redirect s => have := h3 _ hc; cases this
    | injected s => have := h4 _ hc; cases this
    | grpcInjected s => have := h5 _ hc; cases this
    | responseHeadersTimeout => exact absurd hc h6
    | responseStreamTimeout => exact absurd hc h7
    | streamDeadline => exact absurd hc h8
    | streamIdle => exact absurd hc h9
    | h2 e => have := hf _ hc; cases this
    | other n => exact .inl ⟨n, rfl⟩

/-- C82. A status a filter gave a request becomes the label: for HTTP if there are such statuses (100 to 999), for gRPC as the
code of that number. -/
theorem C82_error_statuses (chain : List Cause) (s : Nat) (h : newOrStatus chain = .inr s) :
    (100 ≤ s ∧ s ≤ 999 → httpOfError chain = ⟨some s, none⟩) ∧
    (s < 100 ∨ 999 < s → httpOfError chain = ⟨none, some .unknown⟩) ∧
    (s ≤ 16 → grpcOfError chain = ⟨some s, none⟩) ∧ (16 < s → grpcOfError chain = ⟨some 2, none⟩) := by
  unfold httpOfError grpcOfError
  rw [h]
  refine ⟨fun h => by simp [h], fun h => ?_, fun h => by simp [h], fun h => ?_⟩
  · have : ¬ (100 ≤ s ∧ s ≤ 999) := by omega
    simp [this]
  · have : ¬ s ≤ 16 := by omega
    simp [this]

example : newOrStatus [.redirect 999] = .inr 999 := by decide

/-- C82. The labels of an HTTP route or backend: those of the route; the status of the response, if there is one; and the
error's label, if the stream ended with an error. -/
theorem C82_http_route_label {P : Type} (parent : Q → P) (cancelled : List Cause) (q : Q) (r : Option Rsp)
    (eos : Eos (List Cause)) (l : P × RspLabel) :
    LabelOf (httpRsp parent) cancelled q r eos l ↔
      l.1 = parent q ∧
      ((∃ e, (eos = .error e ∨ (eos = .cancelled ∧ e = cancelled)) ∧
          l.2.status = (r.map (·.status)).or (httpOfError e).status ∧ l.2.error = (httpOfError e).error) ∨
       ((eos = .none ∨ ∃ t, eos = .trailers t) ∧ l.2.status = r.map (·.status) ∧ l.2.error = none)) := by
  obtain ⟨p, ls, le⟩ := l
  constructor
  · rintro ⟨s, res, hs, hr, hl⟩
    simp only [httpRsp, rspLabeler, httpLabeler, Option.some.injEq] at hs
    subst hs
    cases hr <;> cases r <;> cases hl <;>
      simp [httpRsp, rspLabeler, httpLabeler, errorLabeler, RspLabel.apply]
  · rintro ⟨h1, h2⟩
    simp only at h1
    subst h1
    refine ⟨(parent q, none, none), _, rfl, (shown_iff _ _ _).2 rfl, ?_⟩
    rcases h2 with ⟨e, he, h3, h4⟩ | ⟨he, h3, h4⟩
    · simp only at h3 h4
      subst h3 h4
      rcases he with rfl | ⟨rfl, rfl⟩ <;> cases r <;>
        simp [httpRsp, rspLabeler, httpLabeler, errorLabeler, RspLabel.apply]
    · simp only at h3 h4
      subst h3 h4
      rcases he with rfl | ⟨t, rfl⟩ <;> cases r <;>
        simp [httpRsp, rspLabeler, httpLabeler, errorLabeler, RspLabel.apply]

/-- C82. The labels of a gRPC route or backend likewise, with the gRPC status. -/
theorem C82_grpc_route_label {P : Type} (parent : Q → P) (cancelled : List Cause) (q : Q) (r : Option Rsp)
    (eos : Eos (List Cause)) (l : P × RspLabel) :
    LabelOf (grpcRsp parent) cancelled q r eos l ↔
      l.1 = parent q ∧
      ((∃ e, (eos = .error e ∨ (eos = .cancelled ∧ e = cancelled)) ∧
          l.2.status = (r.bind fun r => grpcStatus r.headers).or (grpcOfError e).status ∧
          l.2.error = (grpcOfError e).error) ∨
       (eos = .none ∧ l.2.status = (r.bind fun r => grpcStatus r.headers) ∧ l.2.error = none) ∨
       (∃ t, eos = .trailers t ∧ l.2.status = grpcStatus t ∧ l.2.error = none)) := by
  obtain ⟨p, ls, le⟩ := l
  have key : ∀ (o : Option Nat) (x : Option RspLabel),
      (RspLabel.apply ⟨none, none⟩ (o.map fun c => ⟨some c, none⟩)).apply x =
      match x with
      | none => ⟨o, none⟩
      | some x => ⟨o.or x.status, x.error⟩ := by
    intro o x
    cases o <;> cases x <;> simp [RspLabel.apply]
  constructor
  · rintro ⟨s, res, hs, hr, hl⟩
    simp only [grpcRsp, rspLabeler, grpcLabeler, Option.some.injEq] at hs
    subst hs
    cases hr <;> cases r <;>
      simp only [grpcRsp, rspLabeler, grpcLabeler, errorLabeler, key, Prod.mk.injEq, RspLabel.mk.injEq] at hl <;>
      obtain ⟨rfl, rfl, rfl⟩ := hl <;> simp
  · rintro ⟨h1, h2⟩
    simp only at h1
    subst h1
    refine ⟨(parent q, none, none), _, rfl, (shown_iff _ _ _).2 rfl, ?_⟩
    rcases h2 with ⟨e, he, h3, h4⟩ | ⟨rfl, h3, h4⟩ | ⟨t, rfl, h3, h4⟩
    · simp only at h3 h4
      subst h3 h4
      rcases he with rfl | ⟨rfl, rfl⟩ <;> cases r <;>
        simp [grpcRsp, rspLabeler, grpcLabeler, errorLabeler, key]
    · simp only at h3 h4
      subst h3 h4
      cases r <;> simp [grpcRsp, rspLabeler, grpcLabeler, errorLabeler, key]
    · simp only at h3 h4
      subst h3 h4
      cases r <;> simp [grpcRsp, rspLabeler, grpcLabeler, errorLabeler, key]

/-! ### A case -/

/-- Two interleaved requests: the first ends with trailers, the second is dropped while its response streams; a third is
cancelled before its response. -/
def exOps : List (Op Unit (List Cause)) :=
  [.call 0 (), .call 5 (), .on 1 6 (.future .pending), .on 0 7 (.future (.ok ⟨200, []⟩ false)),
   .on 0 8 (.body ⟨.data [1, 2], false⟩), .on 1 9 (.future (.ok ⟨503, []⟩ false)), .call 9 (), .on 1 10 .drop,
   .on 0 11 (.body ⟨.trailers [("grpc-status", ['1', '4'])], false⟩), .on 2 12 .drop, .on 0 13 .drop]

example : statuses (httpRsp fun _ => ()) [.other "cancelled"] exOps ((), ⟨some 200, none⟩) = 1 ∧
    statuses (httpRsp fun _ => ()) [.other "cancelled"] exOps ((), ⟨some 503, some .unknown⟩) = 1 ∧
    statuses (grpcRsp fun _ => ()) [.other "cancelled"] exOps ((), ⟨some 14, none⟩) = 1 ∧
    (transcripts exOps).length = 3 := by decide +kernel

example : newOrStatus [.other "endpoint", .h2 (.reset 7)] = .inl .refused := by decide

end Verif.Prom
